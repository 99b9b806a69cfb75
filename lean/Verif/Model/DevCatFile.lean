import Verif.Model.Csv
import Verif.Model.DevCatTable

/-
The text of internal/devcats.csv.
-/

namespace Insteon

/-- The lines of internal/devcats.csv 1-60, without their line ends. -/
def devcatsLines1 : List Bytes := [
  utf8! "\ufeff0x00,0x04,2430,ControLinc\u00a0",
  utf8! "0x00,0x05,2440,RemoteLinc\u00a0",
  utf8! "0x00,0x06,2830,ICON Tabletop Controller\u00a0",
  utf8! "0x00,0x09,2442,SignaLinc RF Signal Enhancer\u00a0",
  utf8! "0x00,0x0B,2443,Access Point (Wireless Phase Coupler)\u00a0",
  utf8! "0x00,0x0C,12005,IES Color Touchscreen\u00a0",
  utf8! "0x00,0x0E,2440EZ,RemoteLinc EZ\u00a0",
  utf8! "0x00,0x10,2444A2xx4,\"RemoteLinc 2 Keypad, 4 Scene\u00a0\"",
  utf8! "0x00,0x11,2444A3xx,RemoteLinc 2 Switch\u00a0",
  utf8! "0x00,0x12,2444A2xx8,\"RemoteLinc 2 Keypad, 8 Scene\u00a0\"",
  utf8! "0x00,0x13,2993-222,Insteon Diagnostics Keypad\u00a0",
  utf8! "0x00,0x14,2342-432,Insteon Mini Remote - 4 Scene (869 MHz)\u00a0",
  utf8! "0x00,0x15,2342-442,Insteon Mini Remote - Switch (869 MHz)\u00a0",
  utf8! "0x00,0x16,2342-422,Insteon Mini Remote - 8 Scene (869 MHz)\u00a0",
  utf8! "0x00,0x17,2342-532,Insteon Mini Remote - 4 Scene (921 MHz)\u00a0",
  utf8! "0x00,0x18,2342-522,Insteon Mini Remote - 8 Scene (921 MHz)\u00a0",
  utf8! "0x00,0x19,2342-542,Insteon Mini Remote - Switch (921 MHz)\u00a0",
  utf8! "0x00,0x1A,2342-222,Insteon Mini Remote - 8 Scene (915 MHz)\u00a0",
  utf8! "0x00,0x1B,2342-232,Insteon Mini Remote - 4 Scene (915 MHz)\u00a0",
  utf8! "0x00,0x1C,2342-242,Insteon Mini Remote - Switch (915 MHz)\u00a0",
  utf8! "0x00,0x1D,2992-222,Range Extender\u00a0",
  utf8! "0x01,0x00,2456D3,LampLinc 3-Pin\u00a0",
  utf8! "0x01,0x01,2476D,SwitchLinc Dimmer\u00a0",
  utf8! "0x01,0x02,2475D,In-LineLinc Dimmer\u00a0",
  utf8! "0x01,0x03,2876DB,ICON Dimmer Switch\u00a0",
  utf8! "0x01,0x04,2476DH,SwitchLinc Dimmer (High Wattage)\u00a0",
  utf8! "0x01,0x05,2484DWH8,Keypad Countdown Timer w/ Dimmer\u00a0",
  utf8! "0x01,0x06,2456D2,LampLinc Dimmer (2-Pin)\u00a0",
  utf8! "0x01,0x07,2856D2B,ICON LampLinc\u00a0",
  utf8! "0x01,0x08,2476DT,SwitchLinc Dimmer Count-down Timer\u00a0",
  utf8! "0x01,0x09,2486D,KeypadLinc Dimmer\u00a0",
  utf8! "0x01,0x0A,2886D,Icon In-Wall Controller\u00a0",
  utf8! "0x01,0x0B,2632-422,\"Insteon Dimmer Module, France (869 MHz)\u00a0\"",
  utf8! "0x01,0x0C,2486DWH8,KeypadLinc Dimmer\u00a0",
  utf8! "0x01,0x0D,2454D,SocketLinc\u00a0",
  utf8! "0x01,0x0E,2457D2,LampLinc (Dual-Band)\u00a0",
  utf8! "0x01,0x0F,2632-432,\"Insteon Dimmer Module, Germany (869 MHz)\u00a0\"",
  utf8! "0x01,0x11,2632-442,\"Insteon Dimmer Module, UK (869 MHz)\u00a0\"",
  utf8! "0x01,0x12,2632-522,\"Insteon Dimmer Module, Aus/NZ (921 MHz)\u00a0\"",
  utf8! "0x01,0x13,2676D-B,ICON SwitchLinc Dimmer Lixar/Bell Canada\u00a0",
  utf8! "0x01,0x17,2466D,ToggleLinc Dimmer\u00a0",
  utf8! "0x01,0x18,2474D,Icon SwitchLinc Dimmer Inline Companion\u00a0",
  utf8! "0x01,0x19,2476D,SwitchLinc Dimmer [with beeper]\u00a0",
  utf8! "0x01,0x1A,2475D,In-LineLinc Dimmer [with beeper]\u00a0",
  utf8! "0x01,0x1B,2486DWH6,KeypadLinc Dimmer\u00a0",
  utf8! "0x01,0x1C,2486DWH8,KeypadLinc Dimmer\u00a0",
  utf8! "0x01,0x1D,2476DH,SwitchLinc Dimmer (High Wattage)[beeper]\u00a0",
  utf8! "0x01,0x1E,2876DB,ICON Switch Dimmer\u00a0",
  utf8! "0x01,0x1F,2466Dx,ToggleLinc Dimmer [with beeper]\u00a0",
  utf8! "0x01,0x20,2477D,SwitchLinc Dimmer (Dual-Band)\u00a0",
  utf8! "0x01,0x21,2472D,OutletLinc Dimmer (Dual-Band)\u00a0",
  utf8! "0x01,0x22,2457D2X,LampLinc\u00a0",
  utf8! "0x01,0x23,2457D2EZ,LampLinc Dual-Band EZ\u00a0",
  utf8! "0x01,0x24,2474DWH,SwitchLinc 2-Wire Dimmer (RF)\u00a0",
  utf8! "0x01,0x25,2475DA2,In-LineLinc 0-10VDC Dimmer/Dual-SwitchDB\u00a0",
  utf8! "0x01,0x2D,2477DH,SwitchLinc-Dimmer Dual-Band 1000W\u00a0",
  utf8! "0x01,0x2E,2475F,FanLinc\u00a0",
  utf8! "0x01,0x2F,2484DST6,KeypadLinc Schedule Timer with Dimmer\u00a0",
  utf8! "0x01,0x30,2476D,SwitchLinc Dimmer\u00a0",
  utf8! "0x01,0x31,2478D,SwitchLinc Dimmer 240V-50/60Hz Dual-Band\u00a0"]

/-- The lines of internal/devcats.csv 61-120, without their line ends. -/
def devcatsLines2 : List Bytes := [
  utf8! "0x01,0x32,2475DA1,In-LineLinc Dimmer (Dual Band)\u00a0",
  utf8! "0x01,0x34,2452-222,Insteon DIN Rail Dimmer (915 MHz)\u00a0",
  utf8! "0x01,0x35,2442-222,Insteon Micro Dimmer (915 MHz)\u00a0",
  utf8! "0x01,0x36,2452-422,Insteon DIN Rail Dimmer (869 MHz)\u00a0",
  utf8! "0x01,0x37,2452-522,Insteon DIN Rail Dimmer (921 MHz)\u00a0",
  utf8! "0x01,0x38,2442-422,Insteon Micro Dimmer (869 MHz)\u00a0",
  utf8! "0x01,0x39,2442-522,Insteon Micro Dimmer (921 MHz)\u00a0",
  utf8! "0x01,0x3A,2672-222,LED Bulb 240V (915 MHz) - Screw-in Base\u00a0",
  utf8! "0x01,0x3B,2672-422,LED Bulb 240V Europe - Screw-in Base\u00a0",
  utf8! "0x01,0x3C,2672-522,LED Bulb 240V Aus/NZ - Screw-in Base\u00a0",
  utf8! "0x01,0x3D,2446-422,Insteon Ballast Dimmer (869 MHz)\u00a0",
  utf8! "0x01,0x3E,2446-522,Insteon Ballast Dimmer (921 MHz)\u00a0",
  utf8! "0x01,0x3F,2447-422,Insteon Fixture Dimmer (869 MHz)\u00a0",
  utf8! "0x01,0x40,2447-522,Insteon Fixture Dimmer (921 MHz)\u00a0",
  utf8! "0x01,0x41,2334-222,\"Keypad Dimmer Dual-Band, 8 Button\u00a0\"",
  utf8! "0x01,0x42,2334-232,\"Keypad Dimmer Dual-Band, 6 Button\u00a0\"",
  utf8! "0x01,0x49,2674-222,LED Bulb PAR38 US/Can - Screw-in Base\u00a0",
  utf8! "0x01,0x4A,2674-422,LED Bulb PAR38 Europe - Screw-in Base\u00a0",
  utf8! "0x01,0x4B,2674-522,LED Bulb PAR38 Aus/NZ - Screw-in Base\u00a0",
  utf8! "0x01,0x4C,2672-432,LED Bulb 240V Europe - Bayonet Base\u00a0",
  utf8! "0x01,0x4D,2672-532,LED Bulb 240V Aus/NZ - Bayonet Base\u00a0",
  utf8! "0x01,0x4E,2674-432,LED Bulb PAR38 Europe - Bayonet Base\u00a0",
  utf8! "0x01,0x4F,2674-532,LED Bulb PAR38 Aus/NZ - Bayonet Base\u00a0",
  utf8! "0x01,0x50,2632-452,\"Insteon Dimmer Module, Chile (915 MHz)\u00a0\"",
  utf8! "0x01,0x51,2672-452,LED Bulb 240V (915 MHz) - Screw-in Base\u00a0",
  utf8! "0x02,0x05,2486SWH8,KeypadLinc 8-button On/Off Switch\u00a0",
  utf8! "0x02,0x06,2456S3E,Outdoor ApplianceLinc\u00a0",
  utf8! "0x02,0x07,2456S3T,TimerLinc\u00a0",
  utf8! "0x02,0x08,2473S,OutletLinc\u00a0",
  utf8! "0x02,0x09,2456S3,ApplianceLinc (3-Pin)\u00a0",
  utf8! "0x02,0x0A,2476S,SwitchLinc Relay\u00a0",
  utf8! "0x02,0x0B,2876S,ICON On/Off Switch\u00a0",
  utf8! "0x02,0x0C,2856S3,Icon Appliance Module\u00a0",
  utf8! "0x02,0x0D,2466S,ToggleLinc Relay\u00a0",
  utf8! "0x02,0x0E,2476ST,SwitchLinc Relay Countdown Timer\u00a0",
  utf8! "0x02,0x0F,2486SWH6,KeypadLinc On/Off\u00a0",
  utf8! "0x02,0x10,2475S,In-LineLinc Relay\u00a0",
  utf8! "0x02,0x12,2474 S/D,ICON In-lineLinc Relay Companion\u00a0",
  utf8! "0x02,0x13,2676R-B,ICON SwitchLinc Relay Lixar/Bell Canada\u00a0",
  utf8! "0x02,0x14,2475S2,In-LineLinc Relay with Sense\u00a0",
  utf8! "0x02,0x15,2476SS,SwitchLinc Relay with Sense\u00a0",
  utf8! "0x02,0x16,2876S,ICON On/Off Switch (25 max links)\u00a0",
  utf8! "0x02,0x17,2856S3B,ICON Appliance Module\u00a0",
  utf8! "0x02,0x18,2494S220,SwitchLinc 220V Relay\u00a0",
  utf8! "0x02,0x19,2494S220,SwitchLinc 220V Relay [with beeper]\u00a0",
  utf8! "0x02,0x1A,2466Sx,ToggleLinc Relay [with Beeper]\u00a0",
  utf8! "0x02,0x1C,2476S,SwitchLinc Relay\u00a0",
  utf8! "0x02,0x1D,4101,Commercial Switch with relay\u00a0",
  utf8! "0x02,0x1E,2487S,KeypadLinc On/Off (Dual-Band)\u00a0",
  utf8! "0x02,0x1F,2475SDB,In-LineLinc On/Off (Dual-Band)\u00a0",
  utf8! "0x02,0x25,2484SWH8,KeypadLinc 8-Button Countdown On/Off Switch Timer\u00a0",
  utf8! "0x02,0x26,2485SWH6,Keypad Schedule Timer with On/Off Switch\u00a0",
  utf8! "0x02,0x29,2476ST,SwitchLinc Relay Countdown Timer\u00a0",
  utf8! "0x02,0x2A,2477S,SwitchLinc Relay (Dual-Band)\u00a0",
  utf8! "0x02,0x2B,2475SDB-50,\"In-LineLinc On/Off (Dual Band, 50/60 Hz)\u00a0\"",
  utf8! "0x02,0x2C,2487S,\"KeypadLinc On/Off (Dual-Band,50/60 Hz)\u00a0\"",
  utf8! "0x02,0x2D,2633-422,\"Insteon On/Off Module, France (869 MHz)\u00a0\"",
  utf8! "0x02,0x2E,2453-222,Insteon DIN Rail On/Off (915 MHz)\u00a0",
  utf8! "0x02,0x2F,2443-222,Insteon Micro On/Off (915 MHz)\u00a0",
  utf8! "0x02,0x30,2633-432,\"Insteon On/Off Module, Germany (869 MHz)\u00a0\""]

/-- The lines of internal/devcats.csv 121-180, without their line ends. -/
def devcatsLines3 : List Bytes := [
  utf8! "0x02,0x31,2443-422,Insteon Micro On/Off (869 MHz)\u00a0",
  utf8! "0x02,0x32,2443-522,Insteon Micro On/Off (921 MHz)\u00a0",
  utf8! "0x02,0x33,2453-422,Insteon DIN Rail On/Off (869 MHz)\u00a0",
  utf8! "0x02,0x34,2453-522,Insteon DIN Rail On/Off (921 MHz)\u00a0",
  utf8! "0x02,0x35,2633-442,\"Insteon On/Off Module, UK (869 MHz)\u00a0\"",
  utf8! "0x02,0x36,2633-522,\"Insteon On/Off Module, Aus/NZ (921 MHz)\u00a0\"",
  utf8! "0x02,0x37,2635-222,\"Insteon On/Off Module, US (915 MHz)\u00a0\"",
  utf8! "0x02,0x38,2634-222,On/Off Outdoor Module (Dual-Band)\u00a0",
  utf8! "0x02,0x39,2663-222,On/Off Outlet\u00a0",
  utf8! "0x02,0x3A,2633-452,\"Insteon On/Off Module, Chile (915 MHz)\u00a0\"",
  utf8! "0x03,0x01,2414S,PowerLinc Serial Controller\u00a0",
  utf8! "0x03,0x02,2414U,PowerLinc USB Controller\u00a0",
  utf8! "0x03,0x03,2814S,ICON PowerLinc Serial\u00a0",
  utf8! "0x03,0x04,2814U,ICON PowerLinc USB\u00a0",
  utf8! "0x03,0x05,2412S,PowerLinc Serial Modem\u00a0",
  utf8! "0x03,0x06,2411R,IRLinc Receiver\u00a0",
  utf8! "0x03,0x07,2411T,IRLinc Transmitter\u00a0",
  utf8! "0x03,0x09,2600RF,SmartLabs RF Developer\u2019s Board\u00a0",
  utf8! "0x03,0x0A,2410S,SeriaLinc - Insteon to RS232\u00a0",
  utf8! "0x03,0x0B,2412U,PowerLinc USB Modem\u00a0",
  utf8! "0x03,0x0F,EZX10IR,EZX10IR X10 IR Receiver\u00a0",
  utf8! "0x03,0x10,2412N,SmartLinc\u00a0",
  utf8! "0x03,0x11,2413S,PowerLinc Serial Modem (Dual Band)\u00a0",
  utf8! "0x03,0x13,2412UH,PowerLinc USB Modem for HouseLinc\u00a0",
  utf8! "0x03,0x14,2412SH,PowerLinc Serial Modem for HouseLinc\u00a0",
  utf8! "0x03,0x15,2413U,PowerLinc USB Modem (Dual Band)\u00a0",
  utf8! "0x03,0x18,2243-222,Insteon Central Controller (915 MHz)\u00a0",
  utf8! "0x03,0x19,2413SH,PowerLinc Serial Modem for HL(Dual Band)\u00a0",
  utf8! "0x03,0x1A,2413UH,PowerLinc USB Modem for HL (Dual Band)\u00a0",
  utf8! "0x03,0x1B,2423A4,iGateway\u00a0",
  utf8! "0x03,0x1C,2423A7,iGateway 2.0\u00a0",
  utf8! "0x03,0x1E,2412S,PowerLincModemSerial w/o EEPROM(w/o RF)\u00a0",
  utf8! "0x03,0x1F,2448A7,USB Adapter - Domestically made\u00a0",
  utf8! "0x03,0x20,2448A7,USB Adapter\u00a0",
  utf8! "0x03,0x21,2448A7H,Portable USB Adapter for HouseLinc\u00a0",
  utf8! "0x03,0x23,2448A7H,Portable USB Adapter for HouseLinc\u00a0",
  utf8! "0x03,0x24,2448A7T,TouchLinc\u00a0",
  utf8! "0x03,0x27,2448A7T,TouchLinc\u00a0",
  utf8! "0x03,0x28,2413Gxx,\"Global PLM, Dual Band (915 MHz)\u00a0\"",
  utf8! "0x03,0x29,2413SAD,\"PowerLinc Serial Modem (Dual Band) RF OFF, Auto Detect 128K\u00a0\"",
  utf8! "0x03,0x2B,2242-222,Insteon Hub (915 MHz) - no RF\u00a0",
  utf8! "0x03,0x2E,2242-422,Insteon Hub (EU - 869 MHz)\u00a0",
  utf8! "0x03,0x2F,2242-522,Insteon Hub (921 MHz)\u00a0",
  utf8! "0x03,0x30,2242-442,Insteon Hub (UK - 869 MHz)\u00a0",
  utf8! "0x03,0x31,2242-232,Insteon Hub (Plug-In Version)\u00a0",
  utf8! "0x03,0x33,2245-222,Insteon Hub II (915 MHz)\u00a0",
  utf8! "0x03,0x37,2242-222,Insteon Hub (915 MHz) - RF\u00a0",
  utf8! "0x04,0x00,31270,Compacta EZRain Sprinkler Controller\u00a0",
  utf8! "0x05,0x00,2670IAQ-80,Broan SMSC080 Exhaust Fan (no beeper)\u00a0",
  utf8! "0x05,0x02,2670IAQ-110,Broan SMSC110 Exhaust Fan (no beeper)\u00a0",
  utf8! "0x05,0x03,2441V,Thermostat Adapter\u00a0",
  utf8! "0x05,0x07,2441ZT,Insteon Wireless Thermostat\u00a0",
  utf8! "0x05,0x0A,2441ZTH,Insteon Wireless Thermostat (915 MHz)\u00a0",
  utf8! "0x05,0x0B,2441TH,Insteon Thermostat (915 MHz)\u00a0",
  utf8! "0x05,0x0C,2670IAQ-80,Broan SMSC080 Switch for 80CFM Fans\u00a0",
  utf8! "0x05,0x0D,2670IAQ-110,Broan SMSC110 Switch for 110CFM Fans\u00a0",
  utf8! "0x05,0x0E,2491TxE,Integrated Remote Control Thermostat\u00a0",
  utf8! "0x05,0x0F,2732-422,Insteon Thermostat (869 MHz)\u00a0",
  utf8! "0x05,0x10,2732-522,Insteon Thermostat (921 MHz)\u00a0",
  utf8! "0x05,0x11,2732-432,Insteon Zone Thermostat (869 MHz)\u00a0"]

/-- The lines of internal/devcats.csv 181-236, without their line ends. -/
def devcatsLines4 : List Bytes := [
  utf8! "0x05,0x12,2732-532,Insteon Zone Thermostat (921 MHz)\u00a0",
  utf8! "0x05,0x13,2732-242,Heat Pump Thermostat - US/Can (915MHz)",
  utf8! "0x05,0x14,2732-242,Heat Pump Thermostat - Europe (869.85MHz)",
  utf8! "0x05,0x15,2732-242,Heat Pump Thermostat - Aus/NZ (921MHz)",
  utf8! "0x07,0x00,2450,I/OLinc\u00a0",
  utf8! "0x07,0x03,31274,Compacta EZIO2X4 #5010D\u00a0",
  utf8! "0x07,0x05,31275,Compacta EZSnsRF RcvrIntrfc Dakota Alert\u00a0",
  utf8! "0x07,0x07,31280,EZIO6I (6 inputs)\u00a0",
  utf8! "0x07,0x08,31283,EZIO4O (4 relay outputs)\u00a0",
  utf8! "0x07,0x09,2423A5,SynchroLinc\u00a0",
  utf8! "0x07,0x0C,2448A5,Lumistat\u00a0",
  utf8! "0x07,0x0D,2450,I/OLinc 50/60Hz Auto Detect\u00a0",
  utf8! "0x07,0x0E,2248-222,I/O Module - US (915 MHz)\u00a0",
  utf8! "0x07,0x0F,2248-422,I/O Module - EU (869.85 MHz)\u00a0",
  utf8! "0x07,0x10,2248-442,I/O Module - UK (869.85 MHz)\u00a0",
  utf8! "0x07,0x11,2248-522,I/O Module - AUS (921 MHz)\u00a0",
  utf8! "0x07,0x12,2822-222,IOLinc Dual-Band - US\u00a0",
  utf8! "0x07,0x13,2822-422,IOLinc Dual-Band - EU\u00a0",
  utf8! "0x07,0x14,2822-442,IOLinc Dual-Band - UK\u00a0",
  utf8! "0x07,0x15,2822-522,IOLinc Dual-Band - AUS/NZ\u00a0",
  utf8! "0x07,0x16,2822-222,Low Voltage/Contact Closure Interface (Dual Band) - US\u00a0",
  utf8! "0x07,0x17,2822-422,Low Voltage/Contact Closure Interface (Dual Band) - EU\u00a0",
  utf8! "0x07,0x18,2822-442,Low Voltage/Contact Closure Interface (Dual Band) - UK\u00a0",
  utf8! "0x07,0x19,2822-522,Low Voltage/Contact Closure Interface (Dual Band) - AUS/NZ\u00a0",
  utf8! "0x09,0x07,2423A1,iMeter Solo\u00a0",
  utf8! "0x09,0x08,2423A2,iMeter Home (Breaker Panel)\u00a0",
  utf8! "0x09,0x09,2423A3,iMeter Home (Meter)\u00a0",
  utf8! "0x09,0x0A,2477SA1,220/240V 30A Load Controller NO (DB)\u00a0",
  utf8! "0x09,0x0B,2477SA2,220/240V 30A Load Controller NC (DB)\u00a0",
  utf8! "0x09,0x0C,2630A1,GE Water Heater U-SNAP module\u00a0",
  utf8! "0x09,0x0D,2448A2,Energy Display\u00a0",
  utf8! "0x09,0x0E,2423A6,Power Strip with iMeter and SynchroLinc\u00a0",
  utf8! "0x09,0x11,2423A8,Insteon Digital Meter Reader\u00a0",
  utf8! "0x0E,0x00,318276I,Somfy Drape Controller RF Bridge\u00a0",
  utf8! "0x0E,0x01,2444-222,Insteon Micro Open/Close (915 MHz)\u00a0",
  utf8! "0x0E,0x02,2444-422,Insteon Micro Open/Close (869 MHz)\u00a0",
  utf8! "0x0E,0x03,2444-522,Insteon Micro Open/Close (921 MHz)\u00a0",
  utf8! "0x0E,0x04,2772-222,Window Shade Kit - US\u00a0",
  utf8! "0x0E,0x05,2772-422,Window Shade Kit - EU\u00a0",
  utf8! "0x0E,0x06,2772-522,Window Shade Kit - AUS/NZ\u00a0",
  utf8! "0x0F,0x06,2458A1,MorningLinc\u00a0",
  utf8! "0x10,0x01,2842-222,Motion Sensor - US (915 MHz)\u00a0",
  utf8! "0x10,0x02,2843-222,Insteon Open/Close Sensor (915 MHz)\u00a0",
  utf8! "0x10,0x04,2842-422,Insteon Motion Sensor (869 MHz)\u00a0",
  utf8! "0x10,0x05,2842-522,Insteon Motion Sensor (921 MHz)\u00a0",
  utf8! "0x10,0x06,2843-422,Insteon Open/Close Sensor (869 MHz)\u00a0",
  utf8! "0x10,0x07,2843-522,Insteon Open/Close Sensor (921 MHz)\u00a0",
  utf8! "0x10,0x08,2852-222,Leak Sensor - US (915 MHz)\u00a0",
  utf8! "0x10,0x09,2843-232,Insteon Door Sensor",
  utf8! "0x10,0x0A,2982-222,Smoke Bridge\u00a0",
  utf8! "0x10,0x0D,2852-422,Leak Sensor - EU (869 MHz)\u00a0",
  utf8! "0x10,0x0E,2852-522,Leak Sensor - AUS/NZ (921 MHz)\u00a0",
  utf8! "0x10,0x11,2845-222,Door Sensor II (915 MHz)\u00a0",
  utf8! "0x10,0x14,2845-422,Door Sensor II (869 MHz)\u00a0",
  utf8! "0x10,0x15,2845-522,Door Sensor II (921 MHz)",
  utf8! "0x10,0x16,2844-222,Motion Sensor\u00a0 - US (915 MHz)\u00a0"]

/-- The lines of internal/devcats.csv 1-236, without their line ends. -/
def devcatsLines : List Bytes := devcatsLines1 ++ devcatsLines2 ++ devcatsLines3 ++ devcatsLines4

/-- The text of internal/devcats.csv 1-236: every line, the last too, ends in CR LF. -/
def devcatsFile : Bytes := devcatsLines.flatMap (fun l => l ++ [0x0d#8, 0x0a#8])

end Insteon
