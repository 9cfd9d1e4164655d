import Verif.Model.Power

/-! # The public methods of `Controller` -/

namespace Xcvr

/-- A call of a public method of `controller/src/controller.rs` that talks to the SP. -/
inductive Op where
  | identifier (m : ModuleId)
  | vendorInfo (m : ModuleId)
  | reset (m : ModuleId)
  | power (m : ModuleId)
  | setPower (m : ModuleId) (s : PowerState)
  | enablePower (m : ModuleId)
  | disablePower (m : ModuleId)
  | assertReset (m : ModuleId)
  | deassertReset (m : ModuleId)
  | assertLpMode (m : ModuleId)
  | deassertLpMode (m : ModuleId)
  | clearPowerFault (m : ModuleId)
  | clearDisableLatch (m : ModuleId)
  | status (m : ModuleId)
  | extendedStatus (m : ModuleId)
  | write (m : ModuleId) (w : MemoryWrite) (data : Bytes)
  | read (m : ModuleId) (rd : MemoryRead)
  | memoryModel (m : ModuleId)
  | monitors (m : ModuleId)
  | datapath (m : ModuleId)
  | macAddrs
  | leds (m : ModuleId)
  | setLeds (m : ModuleId) (s : LedState)

/-- The method, without its result. -/
def Op.prog : Op → Prog Unit
  | .identifier m => do let _ ← Controller.identifier m
  | .vendorInfo m => do let _ ← Controller.vendorInfo m
  | .reset m => do let _ ← Controller.reset m
  | .power m => do let _ ← Controller.power m
  | .setPower m s => do let _ ← Controller.setPower m s
  | .enablePower m => do let _ ← Controller.enablePower m
  | .disablePower m => do let _ ← Controller.disablePower m
  | .assertReset m => do let _ ← Controller.assertReset m
  | .deassertReset m => do let _ ← Controller.deassertReset m
  | .assertLpMode m => do let _ ← Controller.assertLpMode m
  | .deassertLpMode m => do let _ ← Controller.deassertLpMode m
  | .clearPowerFault m => do let _ ← Controller.clearPowerFault m
  | .clearDisableLatch m => do let _ ← Controller.clearDisableLatch m
  | .status m => do let _ ← Controller.status m
  | .extendedStatus m => do let _ ← Controller.extendedStatus m
  | .write m w data => do let _ ← Controller.write m w data
  | .read m rd => do let _ ← Controller.read m rd
  | .memoryModel m => do let _ ← Controller.memoryModel m
  | .monitors m => do let _ ← Controller.monitors m
  | .datapath m => do let _ ← Controller.datapath m
  | .macAddrs => do let _ ← Controller.macAddrs
  | .leds m => do let _ ← Controller.leds m
  | .setLeds m s => do let _ ← Controller.setLeds m s

end Xcvr
