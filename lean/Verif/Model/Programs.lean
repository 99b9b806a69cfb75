import Verif.Model.Database

/-
How the programs start: cmd/ic and cmd/iwalk.
-/

namespace Insteon

/-- `run` of cmd/ic (cmd/ic/main.go 94-97) and `main` of cmd/iwalk (cmd/iwalk/main.go 53-56), as far as the database is concerned: the
program ends if the database cannot be loaded. -/
def startProgram (file : Option Bytes) : Option FileDb :=
  match FileDb.new file with
  | (db, none) => some db
  | (_, some _) => none

end Insteon
