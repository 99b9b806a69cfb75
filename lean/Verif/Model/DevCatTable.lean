import Verif.Model.DevCats

/-
The table of categories and the file made of it, as they are in the project.
-/

namespace Insteon

/-- A text of the project's files as bytes, in UTF-8: `utf8! "Fan"` is written out as `[70, 97, 110].map (BitVec.ofNat 8)`, which the kernel reads faster than a string. -/
macro "utf8! " s:str : term => do
  let bs : Array (Lean.TSyntax `term) := s.getString.toUTF8.data.map fun b => Lean.quote b.toNat
  `((([$bs,*] : List Nat).map (BitVec.ofNat 8) : Bytes))

/-- `domains` (internal/devcats.go 54-79). -/
def genDomains : List GenDomain := [
  ⟨0x00, utf8! "GeneralizeDomain", utf8! "Generalized Controllers"⟩,
  ⟨0x01, utf8! "DimmerDomain", utf8! "Dimmable Lighting Control"⟩,
  ⟨0x02, utf8! "SwitchDomain", utf8! "Switched Lighting Control"⟩,
  ⟨0x03, utf8! "NetworkDomain", utf8! "Network Bridges"⟩,
  ⟨0x04, utf8! "IrrigationDomain", utf8! "Irrigation Control"⟩,
  ⟨0x05, utf8! "ThermostatDomain", utf8! "Climate Control"⟩,
  ⟨0x06, utf8! "PoolSpaDomain", utf8! "Pool and Spa Control"⟩,
  ⟨0x07, utf8! "SensorActuatorDomain", utf8! "Sensors and Actuators"⟩,
  ⟨0x08, utf8! "HomeEntertainmentDomain", utf8! "Home Entertainment"⟩,
  ⟨0x09, utf8! "EnergyMgmtDomain", utf8! "Energy Management"⟩,
  ⟨0x0a, utf8! "ApplianceDomain", utf8! "Built-In Appliance Control"⟩,
  ⟨0x0b, utf8! "PlumbingDomain", utf8! "Plumbing"⟩,
  ⟨0x0c, utf8! "CommunicationDomain", utf8! "Communication"⟩,
  ⟨0x0d, utf8! "ComputerDomain", utf8! "Computer Control"⟩,
  ⟨0x0e, utf8! "WindowCoveringsDomain", utf8! "Window Coverings"⟩,
  ⟨0x0f, utf8! "AccessDomain", utf8! "Access Control"⟩,
  ⟨0x10, utf8! "SecurityDomain", utf8! "Security, Health, Safety"⟩,
  ⟨0x11, utf8! "SurveillanceDomain", utf8! "Surveillance"⟩,
  ⟨0x12, utf8! "AutomotiveDomain", utf8! "Automotive"⟩,
  ⟨0x13, utf8! "PetCareDomain", utf8! "Pet Care"⟩,
  ⟨0x14, utf8! "ToysDomain", utf8! "Toys"⟩,
  ⟨0x15, utf8! "TimekeepingDomain", utf8! "Timekeeping"⟩,
  ⟨0x16, utf8! "HolidayDomain", utf8! "Holiday"⟩,
  ⟨0xff, utf8! "UnassignedDomain", utf8! "Unassigned"⟩]

/-- The records of internal/devcats.csv 1-236. -/
def devcatRows : List DevRow := [
  ⟨utf8! "\ufeff0x00", utf8! "0x04", utf8! "2430", utf8! "ControLinc\u00a0"⟩,
  ⟨utf8! "0x00", utf8! "0x05", utf8! "2440", utf8! "RemoteLinc\u00a0"⟩,
  ⟨utf8! "0x00", utf8! "0x06", utf8! "2830", utf8! "ICON Tabletop Controller\u00a0"⟩,
  ⟨utf8! "0x00", utf8! "0x09", utf8! "2442", utf8! "SignaLinc RF Signal Enhancer\u00a0"⟩,
  ⟨utf8! "0x00", utf8! "0x0B", utf8! "2443", utf8! "Access Point (Wireless Phase Coupler)\u00a0"⟩,
  ⟨utf8! "0x00", utf8! "0x0C", utf8! "12005", utf8! "IES Color Touchscreen\u00a0"⟩,
  ⟨utf8! "0x00", utf8! "0x0E", utf8! "2440EZ", utf8! "RemoteLinc EZ\u00a0"⟩,
  ⟨utf8! "0x00", utf8! "0x10", utf8! "2444A2xx4", utf8! "RemoteLinc 2 Keypad, 4 Scene\u00a0"⟩,
  ⟨utf8! "0x00", utf8! "0x11", utf8! "2444A3xx", utf8! "RemoteLinc 2 Switch\u00a0"⟩,
  ⟨utf8! "0x00", utf8! "0x12", utf8! "2444A2xx8", utf8! "RemoteLinc 2 Keypad, 8 Scene\u00a0"⟩,
  ⟨utf8! "0x00", utf8! "0x13", utf8! "2993-222", utf8! "Insteon Diagnostics Keypad\u00a0"⟩,
  ⟨utf8! "0x00", utf8! "0x14", utf8! "2342-432", utf8! "Insteon Mini Remote - 4 Scene (869 MHz)\u00a0"⟩,
  ⟨utf8! "0x00", utf8! "0x15", utf8! "2342-442", utf8! "Insteon Mini Remote - Switch (869 MHz)\u00a0"⟩,
  ⟨utf8! "0x00", utf8! "0x16", utf8! "2342-422", utf8! "Insteon Mini Remote - 8 Scene (869 MHz)\u00a0"⟩,
  ⟨utf8! "0x00", utf8! "0x17", utf8! "2342-532", utf8! "Insteon Mini Remote - 4 Scene (921 MHz)\u00a0"⟩,
  ⟨utf8! "0x00", utf8! "0x18", utf8! "2342-522", utf8! "Insteon Mini Remote - 8 Scene (921 MHz)\u00a0"⟩,
  ⟨utf8! "0x00", utf8! "0x19", utf8! "2342-542", utf8! "Insteon Mini Remote - Switch (921 MHz)\u00a0"⟩,
  ⟨utf8! "0x00", utf8! "0x1A", utf8! "2342-222", utf8! "Insteon Mini Remote - 8 Scene (915 MHz)\u00a0"⟩,
  ⟨utf8! "0x00", utf8! "0x1B", utf8! "2342-232", utf8! "Insteon Mini Remote - 4 Scene (915 MHz)\u00a0"⟩,
  ⟨utf8! "0x00", utf8! "0x1C", utf8! "2342-242", utf8! "Insteon Mini Remote - Switch (915 MHz)\u00a0"⟩,
  ⟨utf8! "0x00", utf8! "0x1D", utf8! "2992-222", utf8! "Range Extender\u00a0"⟩,
  ⟨utf8! "0x01", utf8! "0x00", utf8! "2456D3", utf8! "LampLinc 3-Pin\u00a0"⟩,
  ⟨utf8! "0x01", utf8! "0x01", utf8! "2476D", utf8! "SwitchLinc Dimmer\u00a0"⟩,
  ⟨utf8! "0x01", utf8! "0x02", utf8! "2475D", utf8! "In-LineLinc Dimmer\u00a0"⟩,
  ⟨utf8! "0x01", utf8! "0x03", utf8! "2876DB", utf8! "ICON Dimmer Switch\u00a0"⟩,
  ⟨utf8! "0x01", utf8! "0x04", utf8! "2476DH", utf8! "SwitchLinc Dimmer (High Wattage)\u00a0"⟩,
  ⟨utf8! "0x01", utf8! "0x05", utf8! "2484DWH8", utf8! "Keypad Countdown Timer w/ Dimmer\u00a0"⟩,
  ⟨utf8! "0x01", utf8! "0x06", utf8! "2456D2", utf8! "LampLinc Dimmer (2-Pin)\u00a0"⟩,
  ⟨utf8! "0x01", utf8! "0x07", utf8! "2856D2B", utf8! "ICON LampLinc\u00a0"⟩,
  ⟨utf8! "0x01", utf8! "0x08", utf8! "2476DT", utf8! "SwitchLinc Dimmer Count-down Timer\u00a0"⟩,
  ⟨utf8! "0x01", utf8! "0x09", utf8! "2486D", utf8! "KeypadLinc Dimmer\u00a0"⟩,
  ⟨utf8! "0x01", utf8! "0x0A", utf8! "2886D", utf8! "Icon In-Wall Controller\u00a0"⟩,
  ⟨utf8! "0x01", utf8! "0x0B", utf8! "2632-422", utf8! "Insteon Dimmer Module, France (869 MHz)\u00a0"⟩,
  ⟨utf8! "0x01", utf8! "0x0C", utf8! "2486DWH8", utf8! "KeypadLinc Dimmer\u00a0"⟩,
  ⟨utf8! "0x01", utf8! "0x0D", utf8! "2454D", utf8! "SocketLinc\u00a0"⟩,
  ⟨utf8! "0x01", utf8! "0x0E", utf8! "2457D2", utf8! "LampLinc (Dual-Band)\u00a0"⟩,
  ⟨utf8! "0x01", utf8! "0x0F", utf8! "2632-432", utf8! "Insteon Dimmer Module, Germany (869 MHz)\u00a0"⟩,
  ⟨utf8! "0x01", utf8! "0x11", utf8! "2632-442", utf8! "Insteon Dimmer Module, UK (869 MHz)\u00a0"⟩,
  ⟨utf8! "0x01", utf8! "0x12", utf8! "2632-522", utf8! "Insteon Dimmer Module, Aus/NZ (921 MHz)\u00a0"⟩,
  ⟨utf8! "0x01", utf8! "0x13", utf8! "2676D-B", utf8! "ICON SwitchLinc Dimmer Lixar/Bell Canada\u00a0"⟩,
  ⟨utf8! "0x01", utf8! "0x17", utf8! "2466D", utf8! "ToggleLinc Dimmer\u00a0"⟩,
  ⟨utf8! "0x01", utf8! "0x18", utf8! "2474D", utf8! "Icon SwitchLinc Dimmer Inline Companion\u00a0"⟩,
  ⟨utf8! "0x01", utf8! "0x19", utf8! "2476D", utf8! "SwitchLinc Dimmer [with beeper]\u00a0"⟩,
  ⟨utf8! "0x01", utf8! "0x1A", utf8! "2475D", utf8! "In-LineLinc Dimmer [with beeper]\u00a0"⟩,
  ⟨utf8! "0x01", utf8! "0x1B", utf8! "2486DWH6", utf8! "KeypadLinc Dimmer\u00a0"⟩,
  ⟨utf8! "0x01", utf8! "0x1C", utf8! "2486DWH8", utf8! "KeypadLinc Dimmer\u00a0"⟩,
  ⟨utf8! "0x01", utf8! "0x1D", utf8! "2476DH", utf8! "SwitchLinc Dimmer (High Wattage)[beeper]\u00a0"⟩,
  ⟨utf8! "0x01", utf8! "0x1E", utf8! "2876DB", utf8! "ICON Switch Dimmer\u00a0"⟩,
  ⟨utf8! "0x01", utf8! "0x1F", utf8! "2466Dx", utf8! "ToggleLinc Dimmer [with beeper]\u00a0"⟩,
  ⟨utf8! "0x01", utf8! "0x20", utf8! "2477D", utf8! "SwitchLinc Dimmer (Dual-Band)\u00a0"⟩,
  ⟨utf8! "0x01", utf8! "0x21", utf8! "2472D", utf8! "OutletLinc Dimmer (Dual-Band)\u00a0"⟩,
  ⟨utf8! "0x01", utf8! "0x22", utf8! "2457D2X", utf8! "LampLinc\u00a0"⟩,
  ⟨utf8! "0x01", utf8! "0x23", utf8! "2457D2EZ", utf8! "LampLinc Dual-Band EZ\u00a0"⟩,
  ⟨utf8! "0x01", utf8! "0x24", utf8! "2474DWH", utf8! "SwitchLinc 2-Wire Dimmer (RF)\u00a0"⟩,
  ⟨utf8! "0x01", utf8! "0x25", utf8! "2475DA2", utf8! "In-LineLinc 0-10VDC Dimmer/Dual-SwitchDB\u00a0"⟩,
  ⟨utf8! "0x01", utf8! "0x2D", utf8! "2477DH", utf8! "SwitchLinc-Dimmer Dual-Band 1000W\u00a0"⟩,
  ⟨utf8! "0x01", utf8! "0x2E", utf8! "2475F", utf8! "FanLinc\u00a0"⟩,
  ⟨utf8! "0x01", utf8! "0x2F", utf8! "2484DST6", utf8! "KeypadLinc Schedule Timer with Dimmer\u00a0"⟩,
  ⟨utf8! "0x01", utf8! "0x30", utf8! "2476D", utf8! "SwitchLinc Dimmer\u00a0"⟩,
  ⟨utf8! "0x01", utf8! "0x31", utf8! "2478D", utf8! "SwitchLinc Dimmer 240V-50/60Hz Dual-Band\u00a0"⟩,
  ⟨utf8! "0x01", utf8! "0x32", utf8! "2475DA1", utf8! "In-LineLinc Dimmer (Dual Band)\u00a0"⟩,
  ⟨utf8! "0x01", utf8! "0x34", utf8! "2452-222", utf8! "Insteon DIN Rail Dimmer (915 MHz)\u00a0"⟩,
  ⟨utf8! "0x01", utf8! "0x35", utf8! "2442-222", utf8! "Insteon Micro Dimmer (915 MHz)\u00a0"⟩,
  ⟨utf8! "0x01", utf8! "0x36", utf8! "2452-422", utf8! "Insteon DIN Rail Dimmer (869 MHz)\u00a0"⟩,
  ⟨utf8! "0x01", utf8! "0x37", utf8! "2452-522", utf8! "Insteon DIN Rail Dimmer (921 MHz)\u00a0"⟩,
  ⟨utf8! "0x01", utf8! "0x38", utf8! "2442-422", utf8! "Insteon Micro Dimmer (869 MHz)\u00a0"⟩,
  ⟨utf8! "0x01", utf8! "0x39", utf8! "2442-522", utf8! "Insteon Micro Dimmer (921 MHz)\u00a0"⟩,
  ⟨utf8! "0x01", utf8! "0x3A", utf8! "2672-222", utf8! "LED Bulb 240V (915 MHz) - Screw-in Base\u00a0"⟩,
  ⟨utf8! "0x01", utf8! "0x3B", utf8! "2672-422", utf8! "LED Bulb 240V Europe - Screw-in Base\u00a0"⟩,
  ⟨utf8! "0x01", utf8! "0x3C", utf8! "2672-522", utf8! "LED Bulb 240V Aus/NZ - Screw-in Base\u00a0"⟩,
  ⟨utf8! "0x01", utf8! "0x3D", utf8! "2446-422", utf8! "Insteon Ballast Dimmer (869 MHz)\u00a0"⟩,
  ⟨utf8! "0x01", utf8! "0x3E", utf8! "2446-522", utf8! "Insteon Ballast Dimmer (921 MHz)\u00a0"⟩,
  ⟨utf8! "0x01", utf8! "0x3F", utf8! "2447-422", utf8! "Insteon Fixture Dimmer (869 MHz)\u00a0"⟩,
  ⟨utf8! "0x01", utf8! "0x40", utf8! "2447-522", utf8! "Insteon Fixture Dimmer (921 MHz)\u00a0"⟩,
  ⟨utf8! "0x01", utf8! "0x41", utf8! "2334-222", utf8! "Keypad Dimmer Dual-Band, 8 Button\u00a0"⟩,
  ⟨utf8! "0x01", utf8! "0x42", utf8! "2334-232", utf8! "Keypad Dimmer Dual-Band, 6 Button\u00a0"⟩,
  ⟨utf8! "0x01", utf8! "0x49", utf8! "2674-222", utf8! "LED Bulb PAR38 US/Can - Screw-in Base\u00a0"⟩,
  ⟨utf8! "0x01", utf8! "0x4A", utf8! "2674-422", utf8! "LED Bulb PAR38 Europe - Screw-in Base\u00a0"⟩,
  ⟨utf8! "0x01", utf8! "0x4B", utf8! "2674-522", utf8! "LED Bulb PAR38 Aus/NZ - Screw-in Base\u00a0"⟩,
  ⟨utf8! "0x01", utf8! "0x4C", utf8! "2672-432", utf8! "LED Bulb 240V Europe - Bayonet Base\u00a0"⟩,
  ⟨utf8! "0x01", utf8! "0x4D", utf8! "2672-532", utf8! "LED Bulb 240V Aus/NZ - Bayonet Base\u00a0"⟩,
  ⟨utf8! "0x01", utf8! "0x4E", utf8! "2674-432", utf8! "LED Bulb PAR38 Europe - Bayonet Base\u00a0"⟩,
  ⟨utf8! "0x01", utf8! "0x4F", utf8! "2674-532", utf8! "LED Bulb PAR38 Aus/NZ - Bayonet Base\u00a0"⟩,
  ⟨utf8! "0x01", utf8! "0x50", utf8! "2632-452", utf8! "Insteon Dimmer Module, Chile (915 MHz)\u00a0"⟩,
  ⟨utf8! "0x01", utf8! "0x51", utf8! "2672-452", utf8! "LED Bulb 240V (915 MHz) - Screw-in Base\u00a0"⟩,
  ⟨utf8! "0x02", utf8! "0x05", utf8! "2486SWH8", utf8! "KeypadLinc 8-button On/Off Switch\u00a0"⟩,
  ⟨utf8! "0x02", utf8! "0x06", utf8! "2456S3E", utf8! "Outdoor ApplianceLinc\u00a0"⟩,
  ⟨utf8! "0x02", utf8! "0x07", utf8! "2456S3T", utf8! "TimerLinc\u00a0"⟩,
  ⟨utf8! "0x02", utf8! "0x08", utf8! "2473S", utf8! "OutletLinc\u00a0"⟩,
  ⟨utf8! "0x02", utf8! "0x09", utf8! "2456S3", utf8! "ApplianceLinc (3-Pin)\u00a0"⟩,
  ⟨utf8! "0x02", utf8! "0x0A", utf8! "2476S", utf8! "SwitchLinc Relay\u00a0"⟩,
  ⟨utf8! "0x02", utf8! "0x0B", utf8! "2876S", utf8! "ICON On/Off Switch\u00a0"⟩,
  ⟨utf8! "0x02", utf8! "0x0C", utf8! "2856S3", utf8! "Icon Appliance Module\u00a0"⟩,
  ⟨utf8! "0x02", utf8! "0x0D", utf8! "2466S", utf8! "ToggleLinc Relay\u00a0"⟩,
  ⟨utf8! "0x02", utf8! "0x0E", utf8! "2476ST", utf8! "SwitchLinc Relay Countdown Timer\u00a0"⟩,
  ⟨utf8! "0x02", utf8! "0x0F", utf8! "2486SWH6", utf8! "KeypadLinc On/Off\u00a0"⟩,
  ⟨utf8! "0x02", utf8! "0x10", utf8! "2475S", utf8! "In-LineLinc Relay\u00a0"⟩,
  ⟨utf8! "0x02", utf8! "0x12", utf8! "2474 S/D", utf8! "ICON In-lineLinc Relay Companion\u00a0"⟩,
  ⟨utf8! "0x02", utf8! "0x13", utf8! "2676R-B", utf8! "ICON SwitchLinc Relay Lixar/Bell Canada\u00a0"⟩,
  ⟨utf8! "0x02", utf8! "0x14", utf8! "2475S2", utf8! "In-LineLinc Relay with Sense\u00a0"⟩,
  ⟨utf8! "0x02", utf8! "0x15", utf8! "2476SS", utf8! "SwitchLinc Relay with Sense\u00a0"⟩,
  ⟨utf8! "0x02", utf8! "0x16", utf8! "2876S", utf8! "ICON On/Off Switch (25 max links)\u00a0"⟩,
  ⟨utf8! "0x02", utf8! "0x17", utf8! "2856S3B", utf8! "ICON Appliance Module\u00a0"⟩,
  ⟨utf8! "0x02", utf8! "0x18", utf8! "2494S220", utf8! "SwitchLinc 220V Relay\u00a0"⟩,
  ⟨utf8! "0x02", utf8! "0x19", utf8! "2494S220", utf8! "SwitchLinc 220V Relay [with beeper]\u00a0"⟩,
  ⟨utf8! "0x02", utf8! "0x1A", utf8! "2466Sx", utf8! "ToggleLinc Relay [with Beeper]\u00a0"⟩,
  ⟨utf8! "0x02", utf8! "0x1C", utf8! "2476S", utf8! "SwitchLinc Relay\u00a0"⟩,
  ⟨utf8! "0x02", utf8! "0x1D", utf8! "4101", utf8! "Commercial Switch with relay\u00a0"⟩,
  ⟨utf8! "0x02", utf8! "0x1E", utf8! "2487S", utf8! "KeypadLinc On/Off (Dual-Band)\u00a0"⟩,
  ⟨utf8! "0x02", utf8! "0x1F", utf8! "2475SDB", utf8! "In-LineLinc On/Off (Dual-Band)\u00a0"⟩,
  ⟨utf8! "0x02", utf8! "0x25", utf8! "2484SWH8", utf8! "KeypadLinc 8-Button Countdown On/Off Switch Timer\u00a0"⟩,
  ⟨utf8! "0x02", utf8! "0x26", utf8! "2485SWH6", utf8! "Keypad Schedule Timer with On/Off Switch\u00a0"⟩,
  ⟨utf8! "0x02", utf8! "0x29", utf8! "2476ST", utf8! "SwitchLinc Relay Countdown Timer\u00a0"⟩,
  ⟨utf8! "0x02", utf8! "0x2A", utf8! "2477S", utf8! "SwitchLinc Relay (Dual-Band)\u00a0"⟩,
  ⟨utf8! "0x02", utf8! "0x2B", utf8! "2475SDB-50", utf8! "In-LineLinc On/Off (Dual Band, 50/60 Hz)\u00a0"⟩,
  ⟨utf8! "0x02", utf8! "0x2C", utf8! "2487S", utf8! "KeypadLinc On/Off (Dual-Band,50/60 Hz)\u00a0"⟩,
  ⟨utf8! "0x02", utf8! "0x2D", utf8! "2633-422", utf8! "Insteon On/Off Module, France (869 MHz)\u00a0"⟩,
  ⟨utf8! "0x02", utf8! "0x2E", utf8! "2453-222", utf8! "Insteon DIN Rail On/Off (915 MHz)\u00a0"⟩,
  ⟨utf8! "0x02", utf8! "0x2F", utf8! "2443-222", utf8! "Insteon Micro On/Off (915 MHz)\u00a0"⟩,
  ⟨utf8! "0x02", utf8! "0x30", utf8! "2633-432", utf8! "Insteon On/Off Module, Germany (869 MHz)\u00a0"⟩,
  ⟨utf8! "0x02", utf8! "0x31", utf8! "2443-422", utf8! "Insteon Micro On/Off (869 MHz)\u00a0"⟩,
  ⟨utf8! "0x02", utf8! "0x32", utf8! "2443-522", utf8! "Insteon Micro On/Off (921 MHz)\u00a0"⟩,
  ⟨utf8! "0x02", utf8! "0x33", utf8! "2453-422", utf8! "Insteon DIN Rail On/Off (869 MHz)\u00a0"⟩,
  ⟨utf8! "0x02", utf8! "0x34", utf8! "2453-522", utf8! "Insteon DIN Rail On/Off (921 MHz)\u00a0"⟩,
  ⟨utf8! "0x02", utf8! "0x35", utf8! "2633-442", utf8! "Insteon On/Off Module, UK (869 MHz)\u00a0"⟩,
  ⟨utf8! "0x02", utf8! "0x36", utf8! "2633-522", utf8! "Insteon On/Off Module, Aus/NZ (921 MHz)\u00a0"⟩,
  ⟨utf8! "0x02", utf8! "0x37", utf8! "2635-222", utf8! "Insteon On/Off Module, US (915 MHz)\u00a0"⟩,
  ⟨utf8! "0x02", utf8! "0x38", utf8! "2634-222", utf8! "On/Off Outdoor Module (Dual-Band)\u00a0"⟩,
  ⟨utf8! "0x02", utf8! "0x39", utf8! "2663-222", utf8! "On/Off Outlet\u00a0"⟩,
  ⟨utf8! "0x02", utf8! "0x3A", utf8! "2633-452", utf8! "Insteon On/Off Module, Chile (915 MHz)\u00a0"⟩,
  ⟨utf8! "0x03", utf8! "0x01", utf8! "2414S", utf8! "PowerLinc Serial Controller\u00a0"⟩,
  ⟨utf8! "0x03", utf8! "0x02", utf8! "2414U", utf8! "PowerLinc USB Controller\u00a0"⟩,
  ⟨utf8! "0x03", utf8! "0x03", utf8! "2814S", utf8! "ICON PowerLinc Serial\u00a0"⟩,
  ⟨utf8! "0x03", utf8! "0x04", utf8! "2814U", utf8! "ICON PowerLinc USB\u00a0"⟩,
  ⟨utf8! "0x03", utf8! "0x05", utf8! "2412S", utf8! "PowerLinc Serial Modem\u00a0"⟩,
  ⟨utf8! "0x03", utf8! "0x06", utf8! "2411R", utf8! "IRLinc Receiver\u00a0"⟩,
  ⟨utf8! "0x03", utf8! "0x07", utf8! "2411T", utf8! "IRLinc Transmitter\u00a0"⟩,
  ⟨utf8! "0x03", utf8! "0x09", utf8! "2600RF", utf8! "SmartLabs RF Developer\u2019s Board\u00a0"⟩,
  ⟨utf8! "0x03", utf8! "0x0A", utf8! "2410S", utf8! "SeriaLinc - Insteon to RS232\u00a0"⟩,
  ⟨utf8! "0x03", utf8! "0x0B", utf8! "2412U", utf8! "PowerLinc USB Modem\u00a0"⟩,
  ⟨utf8! "0x03", utf8! "0x0F", utf8! "EZX10IR", utf8! "EZX10IR X10 IR Receiver\u00a0"⟩,
  ⟨utf8! "0x03", utf8! "0x10", utf8! "2412N", utf8! "SmartLinc\u00a0"⟩,
  ⟨utf8! "0x03", utf8! "0x11", utf8! "2413S", utf8! "PowerLinc Serial Modem (Dual Band)\u00a0"⟩,
  ⟨utf8! "0x03", utf8! "0x13", utf8! "2412UH", utf8! "PowerLinc USB Modem for HouseLinc\u00a0"⟩,
  ⟨utf8! "0x03", utf8! "0x14", utf8! "2412SH", utf8! "PowerLinc Serial Modem for HouseLinc\u00a0"⟩,
  ⟨utf8! "0x03", utf8! "0x15", utf8! "2413U", utf8! "PowerLinc USB Modem (Dual Band)\u00a0"⟩,
  ⟨utf8! "0x03", utf8! "0x18", utf8! "2243-222", utf8! "Insteon Central Controller (915 MHz)\u00a0"⟩,
  ⟨utf8! "0x03", utf8! "0x19", utf8! "2413SH", utf8! "PowerLinc Serial Modem for HL(Dual Band)\u00a0"⟩,
  ⟨utf8! "0x03", utf8! "0x1A", utf8! "2413UH", utf8! "PowerLinc USB Modem for HL (Dual Band)\u00a0"⟩,
  ⟨utf8! "0x03", utf8! "0x1B", utf8! "2423A4", utf8! "iGateway\u00a0"⟩,
  ⟨utf8! "0x03", utf8! "0x1C", utf8! "2423A7", utf8! "iGateway 2.0\u00a0"⟩,
  ⟨utf8! "0x03", utf8! "0x1E", utf8! "2412S", utf8! "PowerLincModemSerial w/o EEPROM(w/o RF)\u00a0"⟩,
  ⟨utf8! "0x03", utf8! "0x1F", utf8! "2448A7", utf8! "USB Adapter - Domestically made\u00a0"⟩,
  ⟨utf8! "0x03", utf8! "0x20", utf8! "2448A7", utf8! "USB Adapter\u00a0"⟩,
  ⟨utf8! "0x03", utf8! "0x21", utf8! "2448A7H", utf8! "Portable USB Adapter for HouseLinc\u00a0"⟩,
  ⟨utf8! "0x03", utf8! "0x23", utf8! "2448A7H", utf8! "Portable USB Adapter for HouseLinc\u00a0"⟩,
  ⟨utf8! "0x03", utf8! "0x24", utf8! "2448A7T", utf8! "TouchLinc\u00a0"⟩,
  ⟨utf8! "0x03", utf8! "0x27", utf8! "2448A7T", utf8! "TouchLinc\u00a0"⟩,
  ⟨utf8! "0x03", utf8! "0x28", utf8! "2413Gxx", utf8! "Global PLM, Dual Band (915 MHz)\u00a0"⟩,
  ⟨utf8! "0x03", utf8! "0x29", utf8! "2413SAD", utf8! "PowerLinc Serial Modem (Dual Band) RF OFF, Auto Detect 128K\u00a0"⟩,
  ⟨utf8! "0x03", utf8! "0x2B", utf8! "2242-222", utf8! "Insteon Hub (915 MHz) - no RF\u00a0"⟩,
  ⟨utf8! "0x03", utf8! "0x2E", utf8! "2242-422", utf8! "Insteon Hub (EU - 869 MHz)\u00a0"⟩,
  ⟨utf8! "0x03", utf8! "0x2F", utf8! "2242-522", utf8! "Insteon Hub (921 MHz)\u00a0"⟩,
  ⟨utf8! "0x03", utf8! "0x30", utf8! "2242-442", utf8! "Insteon Hub (UK - 869 MHz)\u00a0"⟩,
  ⟨utf8! "0x03", utf8! "0x31", utf8! "2242-232", utf8! "Insteon Hub (Plug-In Version)\u00a0"⟩,
  ⟨utf8! "0x03", utf8! "0x33", utf8! "2245-222", utf8! "Insteon Hub II (915 MHz)\u00a0"⟩,
  ⟨utf8! "0x03", utf8! "0x37", utf8! "2242-222", utf8! "Insteon Hub (915 MHz) - RF\u00a0"⟩,
  ⟨utf8! "0x04", utf8! "0x00", utf8! "31270", utf8! "Compacta EZRain Sprinkler Controller\u00a0"⟩,
  ⟨utf8! "0x05", utf8! "0x00", utf8! "2670IAQ-80", utf8! "Broan SMSC080 Exhaust Fan (no beeper)\u00a0"⟩,
  ⟨utf8! "0x05", utf8! "0x02", utf8! "2670IAQ-110", utf8! "Broan SMSC110 Exhaust Fan (no beeper)\u00a0"⟩,
  ⟨utf8! "0x05", utf8! "0x03", utf8! "2441V", utf8! "Thermostat Adapter\u00a0"⟩,
  ⟨utf8! "0x05", utf8! "0x07", utf8! "2441ZT", utf8! "Insteon Wireless Thermostat\u00a0"⟩,
  ⟨utf8! "0x05", utf8! "0x0A", utf8! "2441ZTH", utf8! "Insteon Wireless Thermostat (915 MHz)\u00a0"⟩,
  ⟨utf8! "0x05", utf8! "0x0B", utf8! "2441TH", utf8! "Insteon Thermostat (915 MHz)\u00a0"⟩,
  ⟨utf8! "0x05", utf8! "0x0C", utf8! "2670IAQ-80", utf8! "Broan SMSC080 Switch for 80CFM Fans\u00a0"⟩,
  ⟨utf8! "0x05", utf8! "0x0D", utf8! "2670IAQ-110", utf8! "Broan SMSC110 Switch for 110CFM Fans\u00a0"⟩,
  ⟨utf8! "0x05", utf8! "0x0E", utf8! "2491TxE", utf8! "Integrated Remote Control Thermostat\u00a0"⟩,
  ⟨utf8! "0x05", utf8! "0x0F", utf8! "2732-422", utf8! "Insteon Thermostat (869 MHz)\u00a0"⟩,
  ⟨utf8! "0x05", utf8! "0x10", utf8! "2732-522", utf8! "Insteon Thermostat (921 MHz)\u00a0"⟩,
  ⟨utf8! "0x05", utf8! "0x11", utf8! "2732-432", utf8! "Insteon Zone Thermostat (869 MHz)\u00a0"⟩,
  ⟨utf8! "0x05", utf8! "0x12", utf8! "2732-532", utf8! "Insteon Zone Thermostat (921 MHz)\u00a0"⟩,
  ⟨utf8! "0x05", utf8! "0x13", utf8! "2732-242", utf8! "Heat Pump Thermostat - US/Can (915MHz)"⟩,
  ⟨utf8! "0x05", utf8! "0x14", utf8! "2732-242", utf8! "Heat Pump Thermostat - Europe (869.85MHz)"⟩,
  ⟨utf8! "0x05", utf8! "0x15", utf8! "2732-242", utf8! "Heat Pump Thermostat - Aus/NZ (921MHz)"⟩,
  ⟨utf8! "0x07", utf8! "0x00", utf8! "2450", utf8! "I/OLinc\u00a0"⟩,
  ⟨utf8! "0x07", utf8! "0x03", utf8! "31274", utf8! "Compacta EZIO2X4 #5010D\u00a0"⟩,
  ⟨utf8! "0x07", utf8! "0x05", utf8! "31275", utf8! "Compacta EZSnsRF RcvrIntrfc Dakota Alert\u00a0"⟩,
  ⟨utf8! "0x07", utf8! "0x07", utf8! "31280", utf8! "EZIO6I (6 inputs)\u00a0"⟩,
  ⟨utf8! "0x07", utf8! "0x08", utf8! "31283", utf8! "EZIO4O (4 relay outputs)\u00a0"⟩,
  ⟨utf8! "0x07", utf8! "0x09", utf8! "2423A5", utf8! "SynchroLinc\u00a0"⟩,
  ⟨utf8! "0x07", utf8! "0x0C", utf8! "2448A5", utf8! "Lumistat\u00a0"⟩,
  ⟨utf8! "0x07", utf8! "0x0D", utf8! "2450", utf8! "I/OLinc 50/60Hz Auto Detect\u00a0"⟩,
  ⟨utf8! "0x07", utf8! "0x0E", utf8! "2248-222", utf8! "I/O Module - US (915 MHz)\u00a0"⟩,
  ⟨utf8! "0x07", utf8! "0x0F", utf8! "2248-422", utf8! "I/O Module - EU (869.85 MHz)\u00a0"⟩,
  ⟨utf8! "0x07", utf8! "0x10", utf8! "2248-442", utf8! "I/O Module - UK (869.85 MHz)\u00a0"⟩,
  ⟨utf8! "0x07", utf8! "0x11", utf8! "2248-522", utf8! "I/O Module - AUS (921 MHz)\u00a0"⟩,
  ⟨utf8! "0x07", utf8! "0x12", utf8! "2822-222", utf8! "IOLinc Dual-Band - US\u00a0"⟩,
  ⟨utf8! "0x07", utf8! "0x13", utf8! "2822-422", utf8! "IOLinc Dual-Band - EU\u00a0"⟩,
  ⟨utf8! "0x07", utf8! "0x14", utf8! "2822-442", utf8! "IOLinc Dual-Band - UK\u00a0"⟩,
  ⟨utf8! "0x07", utf8! "0x15", utf8! "2822-522", utf8! "IOLinc Dual-Band - AUS/NZ\u00a0"⟩,
  ⟨utf8! "0x07", utf8! "0x16", utf8! "2822-222", utf8! "Low Voltage/Contact Closure Interface (Dual Band) - US\u00a0"⟩,
  ⟨utf8! "0x07", utf8! "0x17", utf8! "2822-422", utf8! "Low Voltage/Contact Closure Interface (Dual Band) - EU\u00a0"⟩,
  ⟨utf8! "0x07", utf8! "0x18", utf8! "2822-442", utf8! "Low Voltage/Contact Closure Interface (Dual Band) - UK\u00a0"⟩,
  ⟨utf8! "0x07", utf8! "0x19", utf8! "2822-522", utf8! "Low Voltage/Contact Closure Interface (Dual Band) - AUS/NZ\u00a0"⟩,
  ⟨utf8! "0x09", utf8! "0x07", utf8! "2423A1", utf8! "iMeter Solo\u00a0"⟩,
  ⟨utf8! "0x09", utf8! "0x08", utf8! "2423A2", utf8! "iMeter Home (Breaker Panel)\u00a0"⟩,
  ⟨utf8! "0x09", utf8! "0x09", utf8! "2423A3", utf8! "iMeter Home (Meter)\u00a0"⟩,
  ⟨utf8! "0x09", utf8! "0x0A", utf8! "2477SA1", utf8! "220/240V 30A Load Controller NO (DB)\u00a0"⟩,
  ⟨utf8! "0x09", utf8! "0x0B", utf8! "2477SA2", utf8! "220/240V 30A Load Controller NC (DB)\u00a0"⟩,
  ⟨utf8! "0x09", utf8! "0x0C", utf8! "2630A1", utf8! "GE Water Heater U-SNAP module\u00a0"⟩,
  ⟨utf8! "0x09", utf8! "0x0D", utf8! "2448A2", utf8! "Energy Display\u00a0"⟩,
  ⟨utf8! "0x09", utf8! "0x0E", utf8! "2423A6", utf8! "Power Strip with iMeter and SynchroLinc\u00a0"⟩,
  ⟨utf8! "0x09", utf8! "0x11", utf8! "2423A8", utf8! "Insteon Digital Meter Reader\u00a0"⟩,
  ⟨utf8! "0x0E", utf8! "0x00", utf8! "318276I", utf8! "Somfy Drape Controller RF Bridge\u00a0"⟩,
  ⟨utf8! "0x0E", utf8! "0x01", utf8! "2444-222", utf8! "Insteon Micro Open/Close (915 MHz)\u00a0"⟩,
  ⟨utf8! "0x0E", utf8! "0x02", utf8! "2444-422", utf8! "Insteon Micro Open/Close (869 MHz)\u00a0"⟩,
  ⟨utf8! "0x0E", utf8! "0x03", utf8! "2444-522", utf8! "Insteon Micro Open/Close (921 MHz)\u00a0"⟩,
  ⟨utf8! "0x0E", utf8! "0x04", utf8! "2772-222", utf8! "Window Shade Kit - US\u00a0"⟩,
  ⟨utf8! "0x0E", utf8! "0x05", utf8! "2772-422", utf8! "Window Shade Kit - EU\u00a0"⟩,
  ⟨utf8! "0x0E", utf8! "0x06", utf8! "2772-522", utf8! "Window Shade Kit - AUS/NZ\u00a0"⟩,
  ⟨utf8! "0x0F", utf8! "0x06", utf8! "2458A1", utf8! "MorningLinc\u00a0"⟩,
  ⟨utf8! "0x10", utf8! "0x01", utf8! "2842-222", utf8! "Motion Sensor - US (915 MHz)\u00a0"⟩,
  ⟨utf8! "0x10", utf8! "0x02", utf8! "2843-222", utf8! "Insteon Open/Close Sensor (915 MHz)\u00a0"⟩,
  ⟨utf8! "0x10", utf8! "0x04", utf8! "2842-422", utf8! "Insteon Motion Sensor (869 MHz)\u00a0"⟩,
  ⟨utf8! "0x10", utf8! "0x05", utf8! "2842-522", utf8! "Insteon Motion Sensor (921 MHz)\u00a0"⟩,
  ⟨utf8! "0x10", utf8! "0x06", utf8! "2843-422", utf8! "Insteon Open/Close Sensor (869 MHz)\u00a0"⟩,
  ⟨utf8! "0x10", utf8! "0x07", utf8! "2843-522", utf8! "Insteon Open/Close Sensor (921 MHz)\u00a0"⟩,
  ⟨utf8! "0x10", utf8! "0x08", utf8! "2852-222", utf8! "Leak Sensor - US (915 MHz)\u00a0"⟩,
  ⟨utf8! "0x10", utf8! "0x09", utf8! "2843-232", utf8! "Insteon Door Sensor"⟩,
  ⟨utf8! "0x10", utf8! "0x0A", utf8! "2982-222", utf8! "Smoke Bridge\u00a0"⟩,
  ⟨utf8! "0x10", utf8! "0x0D", utf8! "2852-422", utf8! "Leak Sensor - EU (869 MHz)\u00a0"⟩,
  ⟨utf8! "0x10", utf8! "0x0E", utf8! "2852-522", utf8! "Leak Sensor - AUS/NZ (921 MHz)\u00a0"⟩,
  ⟨utf8! "0x10", utf8! "0x11", utf8! "2845-222", utf8! "Door Sensor II (915 MHz)\u00a0"⟩,
  ⟨utf8! "0x10", utf8! "0x14", utf8! "2845-422", utf8! "Door Sensor II (869 MHz)\u00a0"⟩,
  ⟨utf8! "0x10", utf8! "0x15", utf8! "2845-522", utf8! "Door Sensor II (921 MHz)"⟩,
  ⟨utf8! "0x10", utf8! "0x16", utf8! "2844-222", utf8! "Motion Sensor\u00a0 - US (915 MHz)\u00a0"⟩]

/-- `devcatStrings` (devcats.go 44-281). -/
def devcatStrings : List (Nat × Nat × Bytes) := [
  (0x00, 0x04, utf8! "ControLinc"),
  (0x00, 0x05, utf8! "RemoteLinc"),
  (0x00, 0x06, utf8! "ICON Tabletop Controller"),
  (0x00, 0x09, utf8! "SignaLinc RF Signal Enhancer"),
  (0x00, 0x0b, utf8! "Access Point (Wireless Phase Coupler)"),
  (0x00, 0x0c, utf8! "IES Color Touchscreen"),
  (0x00, 0x0e, utf8! "RemoteLinc EZ"),
  (0x00, 0x10, utf8! "RemoteLinc 2 Keypad, 4 Scene"),
  (0x00, 0x11, utf8! "RemoteLinc 2 Switch"),
  (0x00, 0x12, utf8! "RemoteLinc 2 Keypad, 8 Scene"),
  (0x00, 0x13, utf8! "Insteon Diagnostics Keypad"),
  (0x00, 0x14, utf8! "Insteon Mini Remote - 4 Scene (869 MHz)"),
  (0x00, 0x15, utf8! "Insteon Mini Remote - Switch (869 MHz)"),
  (0x00, 0x16, utf8! "Insteon Mini Remote - 8 Scene (869 MHz)"),
  (0x00, 0x17, utf8! "Insteon Mini Remote - 4 Scene (921 MHz)"),
  (0x00, 0x18, utf8! "Insteon Mini Remote - 8 Scene (921 MHz)"),
  (0x00, 0x19, utf8! "Insteon Mini Remote - Switch (921 MHz)"),
  (0x00, 0x1a, utf8! "Insteon Mini Remote - 8 Scene (915 MHz)"),
  (0x00, 0x1b, utf8! "Insteon Mini Remote - 4 Scene (915 MHz)"),
  (0x00, 0x1c, utf8! "Insteon Mini Remote - Switch (915 MHz)"),
  (0x00, 0x1d, utf8! "Range Extender"),
  (0x01, 0x00, utf8! "LampLinc 3-Pin"),
  (0x01, 0x01, utf8! "SwitchLinc Dimmer"),
  (0x01, 0x02, utf8! "In-LineLinc Dimmer"),
  (0x01, 0x03, utf8! "ICON Dimmer Switch"),
  (0x01, 0x04, utf8! "SwitchLinc Dimmer (High Wattage)"),
  (0x01, 0x05, utf8! "Keypad Countdown Timer w/ Dimmer"),
  (0x01, 0x06, utf8! "LampLinc Dimmer (2-Pin)"),
  (0x01, 0x07, utf8! "ICON LampLinc"),
  (0x01, 0x08, utf8! "SwitchLinc Dimmer Count-down Timer"),
  (0x01, 0x09, utf8! "KeypadLinc Dimmer"),
  (0x01, 0x0a, utf8! "Icon In-Wall Controller"),
  (0x01, 0x0b, utf8! "Insteon Dimmer Module, France (869 MHz)"),
  (0x01, 0x0c, utf8! "KeypadLinc Dimmer"),
  (0x01, 0x0d, utf8! "SocketLinc"),
  (0x01, 0x0e, utf8! "LampLinc (Dual-Band)"),
  (0x01, 0x0f, utf8! "Insteon Dimmer Module, Germany (869 MHz)"),
  (0x01, 0x11, utf8! "Insteon Dimmer Module, UK (869 MHz)"),
  (0x01, 0x12, utf8! "Insteon Dimmer Module, Aus/NZ (921 MHz)"),
  (0x01, 0x13, utf8! "ICON SwitchLinc Dimmer Lixar/Bell Canada"),
  (0x01, 0x17, utf8! "ToggleLinc Dimmer"),
  (0x01, 0x18, utf8! "Icon SwitchLinc Dimmer Inline Companion"),
  (0x01, 0x19, utf8! "SwitchLinc Dimmer [with beeper]"),
  (0x01, 0x1a, utf8! "In-LineLinc Dimmer [with beeper]"),
  (0x01, 0x1b, utf8! "KeypadLinc Dimmer"),
  (0x01, 0x1c, utf8! "KeypadLinc Dimmer"),
  (0x01, 0x1d, utf8! "SwitchLinc Dimmer (High Wattage)[beeper]"),
  (0x01, 0x1e, utf8! "ICON Switch Dimmer"),
  (0x01, 0x1f, utf8! "ToggleLinc Dimmer [with beeper]"),
  (0x01, 0x20, utf8! "SwitchLinc Dimmer (Dual-Band)"),
  (0x01, 0x21, utf8! "OutletLinc Dimmer (Dual-Band)"),
  (0x01, 0x22, utf8! "LampLinc"),
  (0x01, 0x23, utf8! "LampLinc Dual-Band EZ"),
  (0x01, 0x24, utf8! "SwitchLinc 2-Wire Dimmer (RF)"),
  (0x01, 0x25, utf8! "In-LineLinc 0-10VDC Dimmer/Dual-SwitchDB"),
  (0x01, 0x2d, utf8! "SwitchLinc-Dimmer Dual-Band 1000W"),
  (0x01, 0x2e, utf8! "FanLinc"),
  (0x01, 0x2f, utf8! "KeypadLinc Schedule Timer with Dimmer"),
  (0x01, 0x30, utf8! "SwitchLinc Dimmer"),
  (0x01, 0x31, utf8! "SwitchLinc Dimmer 240V-50/60Hz Dual-Band"),
  (0x01, 0x32, utf8! "In-LineLinc Dimmer (Dual Band)"),
  (0x01, 0x34, utf8! "Insteon DIN Rail Dimmer (915 MHz)"),
  (0x01, 0x35, utf8! "Insteon Micro Dimmer (915 MHz)"),
  (0x01, 0x36, utf8! "Insteon DIN Rail Dimmer (869 MHz)"),
  (0x01, 0x37, utf8! "Insteon DIN Rail Dimmer (921 MHz)"),
  (0x01, 0x38, utf8! "Insteon Micro Dimmer (869 MHz)"),
  (0x01, 0x39, utf8! "Insteon Micro Dimmer (921 MHz)"),
  (0x01, 0x3a, utf8! "LED Bulb 240V (915 MHz) - Screw-in Base"),
  (0x01, 0x3b, utf8! "LED Bulb 240V Europe - Screw-in Base"),
  (0x01, 0x3c, utf8! "LED Bulb 240V Aus/NZ - Screw-in Base"),
  (0x01, 0x3d, utf8! "Insteon Ballast Dimmer (869 MHz)"),
  (0x01, 0x3e, utf8! "Insteon Ballast Dimmer (921 MHz)"),
  (0x01, 0x3f, utf8! "Insteon Fixture Dimmer (869 MHz)"),
  (0x01, 0x40, utf8! "Insteon Fixture Dimmer (921 MHz)"),
  (0x01, 0x41, utf8! "Keypad Dimmer Dual-Band, 8 Button"),
  (0x01, 0x42, utf8! "Keypad Dimmer Dual-Band, 6 Button"),
  (0x01, 0x49, utf8! "LED Bulb PAR38 US/Can - Screw-in Base"),
  (0x01, 0x4a, utf8! "LED Bulb PAR38 Europe - Screw-in Base"),
  (0x01, 0x4b, utf8! "LED Bulb PAR38 Aus/NZ - Screw-in Base"),
  (0x01, 0x4c, utf8! "LED Bulb 240V Europe - Bayonet Base"),
  (0x01, 0x4d, utf8! "LED Bulb 240V Aus/NZ - Bayonet Base"),
  (0x01, 0x4e, utf8! "LED Bulb PAR38 Europe - Bayonet Base"),
  (0x01, 0x4f, utf8! "LED Bulb PAR38 Aus/NZ - Bayonet Base"),
  (0x01, 0x50, utf8! "Insteon Dimmer Module, Chile (915 MHz)"),
  (0x01, 0x51, utf8! "LED Bulb 240V (915 MHz) - Screw-in Base"),
  (0x02, 0x05, utf8! "KeypadLinc 8-button On/Off Switch"),
  (0x02, 0x06, utf8! "Outdoor ApplianceLinc"),
  (0x02, 0x07, utf8! "TimerLinc"),
  (0x02, 0x08, utf8! "OutletLinc"),
  (0x02, 0x09, utf8! "ApplianceLinc (3-Pin)"),
  (0x02, 0x0a, utf8! "SwitchLinc Relay"),
  (0x02, 0x0b, utf8! "ICON On/Off Switch"),
  (0x02, 0x0c, utf8! "Icon Appliance Module"),
  (0x02, 0x0d, utf8! "ToggleLinc Relay"),
  (0x02, 0x0e, utf8! "SwitchLinc Relay Countdown Timer"),
  (0x02, 0x0f, utf8! "KeypadLinc On/Off"),
  (0x02, 0x10, utf8! "In-LineLinc Relay"),
  (0x02, 0x12, utf8! "ICON In-lineLinc Relay Companion"),
  (0x02, 0x13, utf8! "ICON SwitchLinc Relay Lixar/Bell Canada"),
  (0x02, 0x14, utf8! "In-LineLinc Relay with Sense"),
  (0x02, 0x15, utf8! "SwitchLinc Relay with Sense"),
  (0x02, 0x16, utf8! "ICON On/Off Switch (25 max links)"),
  (0x02, 0x17, utf8! "ICON Appliance Module"),
  (0x02, 0x18, utf8! "SwitchLinc 220V Relay"),
  (0x02, 0x19, utf8! "SwitchLinc 220V Relay [with beeper]"),
  (0x02, 0x1a, utf8! "ToggleLinc Relay [with Beeper]"),
  (0x02, 0x1c, utf8! "SwitchLinc Relay"),
  (0x02, 0x1d, utf8! "Commercial Switch with relay"),
  (0x02, 0x1e, utf8! "KeypadLinc On/Off (Dual-Band)"),
  (0x02, 0x1f, utf8! "In-LineLinc On/Off (Dual-Band)"),
  (0x02, 0x25, utf8! "KeypadLinc 8-Button Countdown On/Off Switch Timer"),
  (0x02, 0x26, utf8! "Keypad Schedule Timer with On/Off Switch"),
  (0x02, 0x29, utf8! "SwitchLinc Relay Countdown Timer"),
  (0x02, 0x2a, utf8! "SwitchLinc Relay (Dual-Band)"),
  (0x02, 0x2b, utf8! "In-LineLinc On/Off (Dual Band, 50/60 Hz)"),
  (0x02, 0x2c, utf8! "KeypadLinc On/Off (Dual-Band,50/60 Hz)"),
  (0x02, 0x2d, utf8! "Insteon On/Off Module, France (869 MHz)"),
  (0x02, 0x2e, utf8! "Insteon DIN Rail On/Off (915 MHz)"),
  (0x02, 0x2f, utf8! "Insteon Micro On/Off (915 MHz)"),
  (0x02, 0x30, utf8! "Insteon On/Off Module, Germany (869 MHz)"),
  (0x02, 0x31, utf8! "Insteon Micro On/Off (869 MHz)"),
  (0x02, 0x32, utf8! "Insteon Micro On/Off (921 MHz)"),
  (0x02, 0x33, utf8! "Insteon DIN Rail On/Off (869 MHz)"),
  (0x02, 0x34, utf8! "Insteon DIN Rail On/Off (921 MHz)"),
  (0x02, 0x35, utf8! "Insteon On/Off Module, UK (869 MHz)"),
  (0x02, 0x36, utf8! "Insteon On/Off Module, Aus/NZ (921 MHz)"),
  (0x02, 0x37, utf8! "Insteon On/Off Module, US (915 MHz)"),
  (0x02, 0x38, utf8! "On/Off Outdoor Module (Dual-Band)"),
  (0x02, 0x39, utf8! "On/Off Outlet"),
  (0x02, 0x3a, utf8! "Insteon On/Off Module, Chile (915 MHz)"),
  (0x03, 0x01, utf8! "PowerLinc Serial Controller"),
  (0x03, 0x02, utf8! "PowerLinc USB Controller"),
  (0x03, 0x03, utf8! "ICON PowerLinc Serial"),
  (0x03, 0x04, utf8! "ICON PowerLinc USB"),
  (0x03, 0x05, utf8! "PowerLinc Serial Modem"),
  (0x03, 0x06, utf8! "IRLinc Receiver"),
  (0x03, 0x07, utf8! "IRLinc Transmitter"),
  (0x03, 0x09, utf8! "SmartLabs RF Developer\u2019s Board"),
  (0x03, 0x0a, utf8! "SeriaLinc - Insteon to RS232"),
  (0x03, 0x0b, utf8! "PowerLinc USB Modem"),
  (0x03, 0x0f, utf8! "EZX10IR X10 IR Receiver"),
  (0x03, 0x10, utf8! "SmartLinc"),
  (0x03, 0x11, utf8! "PowerLinc Serial Modem (Dual Band)"),
  (0x03, 0x13, utf8! "PowerLinc USB Modem for HouseLinc"),
  (0x03, 0x14, utf8! "PowerLinc Serial Modem for HouseLinc"),
  (0x03, 0x15, utf8! "PowerLinc USB Modem (Dual Band)"),
  (0x03, 0x18, utf8! "Insteon Central Controller (915 MHz)"),
  (0x03, 0x19, utf8! "PowerLinc Serial Modem for HL(Dual Band)"),
  (0x03, 0x1a, utf8! "PowerLinc USB Modem for HL (Dual Band)"),
  (0x03, 0x1b, utf8! "iGateway"),
  (0x03, 0x1c, utf8! "iGateway 2.0"),
  (0x03, 0x1e, utf8! "PowerLincModemSerial w/o EEPROM(w/o RF)"),
  (0x03, 0x1f, utf8! "USB Adapter - Domestically made"),
  (0x03, 0x20, utf8! "USB Adapter"),
  (0x03, 0x21, utf8! "Portable USB Adapter for HouseLinc"),
  (0x03, 0x23, utf8! "Portable USB Adapter for HouseLinc"),
  (0x03, 0x24, utf8! "TouchLinc"),
  (0x03, 0x27, utf8! "TouchLinc"),
  (0x03, 0x28, utf8! "Global PLM, Dual Band (915 MHz)"),
  (0x03, 0x29, utf8! "PowerLinc Serial Modem (Dual Band) RF OFF, Auto Detect 128K"),
  (0x03, 0x2b, utf8! "Insteon Hub (915 MHz) - no RF"),
  (0x03, 0x2e, utf8! "Insteon Hub (EU - 869 MHz)"),
  (0x03, 0x2f, utf8! "Insteon Hub (921 MHz)"),
  (0x03, 0x30, utf8! "Insteon Hub (UK - 869 MHz)"),
  (0x03, 0x31, utf8! "Insteon Hub (Plug-In Version)"),
  (0x03, 0x33, utf8! "Insteon Hub II (915 MHz)"),
  (0x03, 0x37, utf8! "Insteon Hub (915 MHz) - RF"),
  (0x04, 0x00, utf8! "Compacta EZRain Sprinkler Controller"),
  (0x05, 0x00, utf8! "Broan SMSC080 Exhaust Fan (no beeper)"),
  (0x05, 0x02, utf8! "Broan SMSC110 Exhaust Fan (no beeper)"),
  (0x05, 0x03, utf8! "Thermostat Adapter"),
  (0x05, 0x07, utf8! "Insteon Wireless Thermostat"),
  (0x05, 0x0a, utf8! "Insteon Wireless Thermostat (915 MHz)"),
  (0x05, 0x0b, utf8! "Insteon Thermostat (915 MHz)"),
  (0x05, 0x0c, utf8! "Broan SMSC080 Switch for 80CFM Fans"),
  (0x05, 0x0d, utf8! "Broan SMSC110 Switch for 110CFM Fans"),
  (0x05, 0x0e, utf8! "Integrated Remote Control Thermostat"),
  (0x05, 0x0f, utf8! "Insteon Thermostat (869 MHz)"),
  (0x05, 0x10, utf8! "Insteon Thermostat (921 MHz)"),
  (0x05, 0x11, utf8! "Insteon Zone Thermostat (869 MHz)"),
  (0x05, 0x12, utf8! "Insteon Zone Thermostat (921 MHz)"),
  (0x05, 0x13, utf8! "Heat Pump Thermostat - US/Can (915MHz)"),
  (0x05, 0x14, utf8! "Heat Pump Thermostat - Europe (869.85MHz)"),
  (0x05, 0x15, utf8! "Heat Pump Thermostat - Aus/NZ (921MHz)"),
  (0x07, 0x00, utf8! "I/OLinc"),
  (0x07, 0x03, utf8! "Compacta EZIO2X4 #5010D"),
  (0x07, 0x05, utf8! "Compacta EZSnsRF RcvrIntrfc Dakota Alert"),
  (0x07, 0x07, utf8! "EZIO6I (6 inputs)"),
  (0x07, 0x08, utf8! "EZIO4O (4 relay outputs)"),
  (0x07, 0x09, utf8! "SynchroLinc"),
  (0x07, 0x0c, utf8! "Lumistat"),
  (0x07, 0x0d, utf8! "I/OLinc 50/60Hz Auto Detect"),
  (0x07, 0x0e, utf8! "I/O Module - US (915 MHz)"),
  (0x07, 0x0f, utf8! "I/O Module - EU (869.85 MHz)"),
  (0x07, 0x10, utf8! "I/O Module - UK (869.85 MHz)"),
  (0x07, 0x11, utf8! "I/O Module - AUS (921 MHz)"),
  (0x07, 0x12, utf8! "IOLinc Dual-Band - US"),
  (0x07, 0x13, utf8! "IOLinc Dual-Band - EU"),
  (0x07, 0x14, utf8! "IOLinc Dual-Band - UK"),
  (0x07, 0x15, utf8! "IOLinc Dual-Band - AUS/NZ"),
  (0x07, 0x16, utf8! "Low Voltage/Contact Closure Interface (Dual Band) - US"),
  (0x07, 0x17, utf8! "Low Voltage/Contact Closure Interface (Dual Band) - EU"),
  (0x07, 0x18, utf8! "Low Voltage/Contact Closure Interface (Dual Band) - UK"),
  (0x07, 0x19, utf8! "Low Voltage/Contact Closure Interface (Dual Band) - AUS/NZ"),
  (0x09, 0x07, utf8! "iMeter Solo"),
  (0x09, 0x08, utf8! "iMeter Home (Breaker Panel)"),
  (0x09, 0x09, utf8! "iMeter Home (Meter)"),
  (0x09, 0x0a, utf8! "220/240V 30A Load Controller NO (DB)"),
  (0x09, 0x0b, utf8! "220/240V 30A Load Controller NC (DB)"),
  (0x09, 0x0c, utf8! "GE Water Heater U-SNAP module"),
  (0x09, 0x0d, utf8! "Energy Display"),
  (0x09, 0x0e, utf8! "Power Strip with iMeter and SynchroLinc"),
  (0x09, 0x11, utf8! "Insteon Digital Meter Reader"),
  (0x0e, 0x00, utf8! "Somfy Drape Controller RF Bridge"),
  (0x0e, 0x01, utf8! "Insteon Micro Open/Close (915 MHz)"),
  (0x0e, 0x02, utf8! "Insteon Micro Open/Close (869 MHz)"),
  (0x0e, 0x03, utf8! "Insteon Micro Open/Close (921 MHz)"),
  (0x0e, 0x04, utf8! "Window Shade Kit - US"),
  (0x0e, 0x05, utf8! "Window Shade Kit - EU"),
  (0x0e, 0x06, utf8! "Window Shade Kit - AUS/NZ"),
  (0x0f, 0x06, utf8! "MorningLinc"),
  (0x10, 0x01, utf8! "Motion Sensor - US (915 MHz)"),
  (0x10, 0x02, utf8! "Insteon Open/Close Sensor (915 MHz)"),
  (0x10, 0x04, utf8! "Insteon Motion Sensor (869 MHz)"),
  (0x10, 0x05, utf8! "Insteon Motion Sensor (921 MHz)"),
  (0x10, 0x06, utf8! "Insteon Open/Close Sensor (869 MHz)"),
  (0x10, 0x07, utf8! "Insteon Open/Close Sensor (921 MHz)"),
  (0x10, 0x08, utf8! "Leak Sensor - US (915 MHz)"),
  (0x10, 0x09, utf8! "Insteon Door Sensor"),
  (0x10, 0x0a, utf8! "Smoke Bridge"),
  (0x10, 0x0d, utf8! "Leak Sensor - EU (869 MHz)"),
  (0x10, 0x0e, utf8! "Leak Sensor - AUS/NZ (921 MHz)"),
  (0x10, 0x11, utf8! "Door Sensor II (915 MHz)"),
  (0x10, 0x14, utf8! "Door Sensor II (869 MHz)"),
  (0x10, 0x15, utf8! "Door Sensor II (921 MHz)"),
  (0x10, 0x16, utf8! "Motion Sensor\u00a0 - US (915 MHz)")]

end Insteon
