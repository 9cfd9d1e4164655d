import Verif.Spec.InfoText
import Verif.Model.CliMain

/-! # Specification: the flags `--omit-header` and `--ignore-errors` -/

namespace Xcvr.Spec

open Xcvr Cli

/-- The command with `--omit-header` given or not. -/
def omitting (b : Bool) : Cmd → Cmd
  | .status w wo all parseable output sep _ => .status w wo all parseable output sep b
  | .power a => .power { a with omitHeader := b }
  | .identify a => .identify { a with omitHeader := b }
  | .vendorInfo a => .vendorInfo { a with omitHeader := b }
  | .readLower cmis binary offset len a => .readLower cmis binary offset len { a with omitHeader := b }
  | .readUpper cmis binary page bank offset len a => .readUpper cmis binary page bank offset len { a with omitHeader := b }
  | .memoryModel a => .memoryModel { a with omitHeader := b }
  | .leds a => .leds { a with omitHeader := b }
  | .monitors a => .monitors { a with omitHeader := b }
  | c => c

/-- The header of a table: in the parseable form the names of the fields. -/
def headOf {F : Type} (a : TableArgs F) (head : List Char) (name : F → List Char) : List Char :=
  if a.parseable then (separator a.outputSeparator).intercalate (a.output.map name) else head

/-- A table has a header: in the parseable form at least one field is named, which the parser demands. -/
def HasHead {F : Type} (a : TableArgs F) : Prop := a.parseable = true → a.output ≠ []

/-- The header of the output of a command, if it prints a table with a line as the header. -/
inductive Heads : Cmd → List Char → Prop where
  | status {output sep o} : Heads (.status none none false false output sep o) chars!"Port Status"
  | statusParseable {output sep o} : Heads (.status none none false true output sep o)
      ((separator sep).intercalate (output.map StatusField.name))
  | power {a} (h : HasHead a) : Heads (.power a) (headOf a chars!"Port  Power  Software-override" PowerField.name)
  | identify {a} (h : HasHead a) : Heads (.identify a) (headOf a chars!"Port Ident Description" IdentifyField.name)
  | vendorInfo {a} (h : HasHead a) : Heads (.vendorInfo a) (headOf a (chars!"Port Identifier               Vendor           " ++
      chars!"Part             Rev  Serial           Mfg date            ") VendorField.name)
  | readLower {cmis binary offset len a} (h : HasHead a) (hl : len ≠ 0) :
      Heads (.readLower cmis binary offset len a) (headOf a chars!"Port Data" DataField.name)
  | readUpper {cmis binary page bank offset len a} (h : HasHead a) (hl : len ≠ 0) :
      Heads (.readUpper cmis binary page bank offset len a) (headOf a chars!"Port Data" DataField.name)
  | memoryModel {a} (h : HasHead a) : Heads (.memoryModel a) (headOf a chars!"Port Model" ModelField.name)
  | leds {a} (h : HasHead a) : Heads (.leds a) (headOf a chars!"Port LED" LedField.name)
  | monitors {a} (h : HasHead a) (hp : a.parseable = true) : Heads (.monitors a) (headOf a [] MonitorField.name)

/-- An outcome with other lines and other failures listed. -/
def revised (f : Lines → Lines) (g : List (U8 × TransceiverError) → List (U8 × TransceiverError)) :
    Exec CtlError Exit → Exec CtlError Exit
  | .ok (.done out fails) => .ok (.done (f out) (g fails))
  | o => o

end Xcvr.Spec
