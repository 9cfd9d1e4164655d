import Verif.Spec.Controller
import Verif.Model.Ops

/-! # Specification: which modules a method touches, and how -/

namespace Xcvr.Spec

open Xcvr

/-- Every module of `a` is one of `m`. -/
def Among (a m : ModuleId) : Prop := ∀ p, Mem a p → Mem m p

/-- The request of an exchange is about modules of `m` only. -/
def Addresses (m : ModuleId) (x : Exchange) : Prop :=
  ∀ q g, requestOf x = some q → requestModules q = some g → Among g m

/-- The response of an exchange names only modules that were asked about. It need not be well-formed otherwise. -/
def OnTopic (x : Exchange) : Prop :=
  ∀ q R d g s f, requestOf x = some q → responseOf x = some (R, d) → requestModules q = some g →
    responseModules R = some (s, f) → Among s g ∧ Among f g

/-- The modules a method is given. -/
def opModules : Op → Option ModuleId
  | .macAddrs => none
  | .identifier m | .vendorInfo m | .reset m | .power m | .setPower m _ | .enablePower m | .disablePower m
  | .assertReset m | .deassertReset m | .assertLpMode m | .deassertLpMode m | .clearPowerFault m | .clearDisableLatch m
  | .status m | .extendedStatus m | .write m _ _ | .read m _ | .memoryModel m | .monitors m | .datapath m | .leds m
  | .setLeds m _ => some m

/-- The methods that only inspect modules. -/
def Inspects : Op → Prop
  | .identifier _ | .vendorInfo _ | .power _ | .status _ | .extendedStatus _ | .read .. | .memoryModel _ | .monitors _
  | .datapath _ | .macAddrs | .leds _ => True
  | _ => False

/-- A result says something about modules of `m` only. -/
def ResultAmong {P : Type} (m : ModuleId) (res : Res P) : Prop :=
  Among res.modules m ∧ Among res.failures.modules m

end Xcvr.Spec
