import Verif.Model.Message
import Verif.Model.CliPrint

/-!
# The `Debug` text of messages

`#[derive(Debug)]` of the types in `messages/src/message.rs`, as printed with `{:?}` in the error for an unexpected message
and in the error for a bad range of MAC addresses.
-/

namespace Xcvr

/-- The brackets around the fields of a value. -/
inductive Brackets where
  | round
  | curly
  | square
  deriving DecidableEq, Repr

mutual
/-- A value as `Debug` shows it: a word, or a name and fields in brackets. -/
inductive Dbg where
  | word (s : List Char)
  | group (name : List Char) (b : Brackets) (fields : DbgFields)
  deriving Repr
/-- One or more fields, each with its name (which is shown in curly brackets only). -/
inductive DbgFields where
  | one (name : List Char) (v : Dbg)
  | cons (name : List Char) (v : Dbg) (rest : DbgFields)
  deriving Repr
end

namespace Brackets

/-- What `debug_tuple`, `debug_struct` and `debug_list` write before the fields. -/
def opening : Brackets → List Char
  | round => chars!"("
  | curly => chars!" { "
  | square => chars!"["

/-- What they write after the fields. -/
def closing : Brackets → List Char
  | round => chars!")"
  | curly => chars!" }"
  | square => chars!"]"

/-- The name of a field. -/
def label : Brackets → List Char → List Char
  | curly, name => name ++ chars!": "
  | _, _ => []

end Brackets

mutual
/-- `{:?}`, of the standard library. -/
def Dbg.text : Dbg → List Char
  | .word s => s
  | .group name b fields => name ++ b.opening ++ fields.text b ++ b.closing
/-- The fields with `, ` between them. -/
def DbgFields.text (b : Brackets) : DbgFields → List Char
  | .one name v => b.label name ++ v.text
  | .cons name v rest => b.label name ++ v.text ++ chars!", " ++ rest.text b
end

/-- A number. -/
def Dbg.num (n : Nat) : Dbg := .word (Nat.toDigits 10 n)
/-- A tuple struct or variant with one field. -/
def Dbg.wrap (name : List Char) (v : Dbg) : Dbg := .group name .round (.one [] v)

/-- `module_id.rs` 30-34 `Debug for ModuleId`: `ModuleId(0x{:0x})`. -/
def ModuleId.debug (m : ModuleId) : Dbg := .wrap chars!"ModuleId" (.word (chars!"0x" ++ Nat.toDigits 16 m.mask.toNat))

/-- `mgmt/mod.rs` 73-83 `ManagementInterface`. -/
def ManagementInterface.debugTree : ManagementInterface → Dbg
  | .sff8636 => .word chars!"Sff8636"
  | .cmis => .word chars!"Cmis"
  | .unknown x => .wrap chars!"Unknown" (.num x.toNat)

/-- `message.rs` 1030-1050 `LedState`. -/
def LedState.debug : LedState → Dbg
  | .off => .word chars!"Off"
  | .on => .word chars!"On"
  | .blink => .word chars!"Blink"

/-- `Option<u8>`. -/
def debugOption : Option U8 → Dbg
  | none => .word chars!"None"
  | some x => .wrap chars!"Some" (.num x.toNat)

/-- `mgmt/mod.rs` 147-150 `Page`, with `mgmt/sff8636.rs` 20-23, 38-52 and `mgmt/cmis.rs` 20-24, 43-59. -/
def Page.debug : Page → Dbg
  | .sff8636 .lower => .wrap chars!"Sff8636" (.word chars!"Lower")
  | .sff8636 (.upper p) => .wrap chars!"Sff8636" (.wrap chars!"Upper" (.wrap chars!"UpperPage" (.num p.toNat)))
  | .cmis .lower => .wrap chars!"Cmis" (.word chars!"Lower")
  | .cmis (.upper p) => .wrap chars!"Cmis" (.wrap chars!"Upper"
      (.group chars!"UpperPage" .curly (.cons chars!"bank" (debugOption p.bank) (.one chars!"page" (.num p.page.toNat)))))

/-- `mgmt/mod.rs` 213-218 `MemoryRead` and 252-257 `MemoryWrite`. -/
def MemAccess.debug (name : List Char) (a : MemAccess) : Dbg :=
  .group name .curly (.cons chars!"page" a.page.debug
    (.cons chars!"offset" (.num a.offset.toNat) (.one chars!"len" (.num a.len.toNat))))

/-- `message.rs` 86-124 `ProtocolError`. -/
def ProtocolError.debug : ProtocolError → Dbg
  | .wrongMessage => .word chars!"WrongMessage"
  | .notSupported => .word chars!"NotSupported"
  | .requestTooLarge => .word chars!"RequestTooLarge"
  | .wrongDataSize e a => .group chars!"WrongDataSize" .curly
      (.cons chars!"expected" (.num e.toNat) (.one chars!"actual" (.num a.toNat)))
  | .versionMismatch e a => .group chars!"VersionMismatch" .curly
      (.cons chars!"expected" (.num e.toNat) (.one chars!"actual" (.num a.toNat)))
  | .serialization => .word chars!"Serialization"

/-- `message.rs` 474-548 `HostRequest`. -/
def HostRequest.debug : HostRequest → Dbg
  | .read m r => .group chars!"Read" .curly
      (.cons chars!"modules" m.debug (.one chars!"read" (r.debug chars!"MemoryRead")))
  | .write m w => .group chars!"Write" .curly
      (.cons chars!"modules" m.debug (.one chars!"write" (w.debug chars!"MemoryWrite")))
  | .status m => .wrap chars!"Status" m.debug
  | .assertReset m => .wrap chars!"AssertReset" m.debug
  | .deassertReset m => .wrap chars!"DeassertReset" m.debug
  | .assertLpMode m => .wrap chars!"AssertLpMode" m.debug
  | .deassertLpMode m => .wrap chars!"DeassertLpMode" m.debug
  | .enablePower m => .wrap chars!"EnablePower" m.debug
  | .disablePower m => .wrap chars!"DisablePower" m.debug
  | .managementInterface m i => .group chars!"ManagementInterface" .curly
      (.cons chars!"modules" m.debug (.one chars!"interface" i.debugTree))
  | .macAddrs => .word chars!"MacAddrs"
  | .clearPowerFault m => .wrap chars!"ClearPowerFault" m.debug
  | .ledState m => .wrap chars!"LedState" m.debug
  | .setLedState m s => .group chars!"SetLedState" .curly (.cons chars!"modules" m.debug (.one chars!"state" s.debug))
  | .extendedStatus m => .wrap chars!"ExtendedStatus" m.debug
  | .clearDisableLatch m => .wrap chars!"ClearDisableLatch" m.debug

/-- `[u8; 6]`. -/
def Mac.debug (m : Mac) : Dbg :=
  .group [] .square (.cons [] (.num m.b0.toNat) (.cons [] (.num m.b1.toNat) (.cons [] (.num m.b2.toNat)
    (.cons [] (.num m.b3.toNat) (.cons [] (.num m.b4.toNat) (.one [] (.num m.b5.toNat)))))))

/-- `mac.rs` 35-55 `BadMacAddrReason`. -/
def BadMacAddrReason.debug : BadMacAddrReason → Dbg
  | .spansMultipleOuis => .word chars!"SpansMultipleOuis"
  | .zeroStrideOrCount => .word chars!"ZeroStrideOrCount"
  | .multicastBaseAddr => .word chars!"MulticastBaseAddr"

/-- `mac.rs` 14-21 `BadMacAddrRange` and 58-70 `MacAddrs`, in `message.rs` 710-716 `MacAddrResponse`. -/
def MacAddrResponse.debug : MacAddrResponse → Dbg
  | .ok a => .wrap chars!"Ok" (.group chars!"MacAddrs" .curly (.cons chars!"base_mac" a.baseMac.debug
      (.cons chars!"count" (.num a.count.toNat) (.one chars!"stride" (.num a.stride.toNat)))))
  | .error e => .wrap chars!"Error" (.group chars!"BadMacAddrRange" .curly (.cons chars!"reason" e.reason.debug
      (.cons chars!"base_mac" e.baseMac.debug
        (.cons chars!"count" (.num e.count.toNat) (.one chars!"stride" (.num e.stride.toNat))))))

/-- The two sets of modules of a response. -/
def debugModules (name : List Char) (m f : ModuleId) : Dbg :=
  .group name .curly (.cons chars!"modules" m.debug (.one chars!"failed_modules" f.debug))

/-- `message.rs` 579-664 `SpResponse`. -/
def SpResponse.debug : SpResponse → Dbg
  | .read m f r => .group chars!"Read" .curly (.cons chars!"modules" m.debug (.cons chars!"failed_modules" f.debug
      (.one chars!"read" (r.debug chars!"MemoryRead"))))
  | .write m f w => .group chars!"Write" .curly (.cons chars!"modules" m.debug (.cons chars!"failed_modules" f.debug
      (.one chars!"write" (w.debug chars!"MemoryWrite"))))
  | .status m f => debugModules chars!"Status" m f
  | .ack m f => debugModules chars!"Ack" m f
  | .macAddrs r => .wrap chars!"MacAddrs" r.debug
  | .ledState m f => debugModules chars!"LedState" m f
  | .extendedStatus m f => debugModules chars!"ExtendedStatus" m f

/-- `message.rs` 420-442 `MessageBody`. -/
def MessageBody.debug : MessageBody → Dbg
  | .error e => .wrap chars!"Error" e.debug
  | .hostRequest r => .wrap chars!"HostRequest" r.debug
  | .spResponse r => .wrap chars!"SpResponse" r.debug
  | .spRequest r => nomatch r
  | .hostResponse r => nomatch r

end Xcvr
