import Verif.Model.Json

/-!
# JSON schemas of module information (feature `api-traits`)

The `JsonSchema` implementations of the types in `Json.lean`, derived by `schemars` (0.8.22) or written out. A schema stands
for the documents that conform to it (JSON Schema, draft 7). Not modelled: titles, descriptions, `format` (an annotation
that restricts nothing), and how schemas refer to each other; a reference is replaced by what it refers to.
-/

namespace Xcvr

/-- The documents that conform. -/
abbrev Schema := Json → Prop

namespace Schema

/-- `"type": "integer"`, `"minimum": 0`: the schema of `u8` and `u32`. A number with a point may be an integer. -/
def natural : Schema := fun j => ∃ n : Nat, j = .int n ∨ j = .dec n

/-- `"type": "number"`: the schema of `f32`. -/
def number : Schema := fun j => (∃ n, j = .int n) ∨ ∃ z, j = .dec z

/-- `"type": "boolean"`. -/
def boolean : Schema := fun j => ∃ b, j = .bool b

/-- `"type": "string"`. -/
def string : Schema := fun j => ∃ s, j = .str s

/-- `"type": "string"`, `"enum": names`. -/
def names (l : List (List Char)) : Schema := fun j => ∃ s ∈ l, j = .str s

/-- `"type": [.., "null"]`, or `"anyOf"` with `"type": "null"`: the schema of `Option<T>`. -/
def nullable (s : Schema) : Schema := fun j => j = .null ∨ s j

/-- `"type": "array"`, `"items": s`: the schema of `Vec<T>`. -/
def array (s : Schema) : Schema := fun j => ∃ xs, j = .arr xs ∧ ∀ x ∈ xs, s x

/-- The same with `"minItems": n`, `"maxItems": n`: the schema of `[T; n]`. -/
def arrayOf (n : Nat) (s : Schema) : Schema := fun j => ∃ xs, j = .arr xs ∧ xs.length = n ∧ ∀ x ∈ xs, s x

/-- `"type": "object"`, `"additionalProperties": s`: the schema of `BTreeMap<u8, T>`, with any names that `key` allows. -/
def map (key : List Char → Prop) (s : Schema) : Schema := fun j => ∃ fs, j = .obj fs ∧ ∀ f ∈ fs, key f.1 ∧ s f.2

/-- `"type": "object"` with `"properties"` and `"required"`; others are allowed. -/
def object (properties : List (List Char × Schema)) (required : List (List Char)) : Schema := fun j =>
  ∃ fs, j = .obj fs ∧ (∀ name ∈ required, ∃ f ∈ fs, f.1 = name) ∧
    ∀ f ∈ fs, ∀ s, properties.lookup f.1 = some s → s f.2

/-- The same with `"additionalProperties": false`. -/
def closed (properties : List (List Char × Schema)) (required : List (List Char)) : Schema := fun j =>
  ∃ fs, j = .obj fs ∧ (∀ name ∈ required, ∃ f ∈ fs, f.1 = name) ∧
    ∀ f ∈ fs, ∃ s, properties.lookup f.1 = some s ∧ s f.2

/-- `"oneOf"`: exactly one of them. -/
def oneOf (l : List Schema) : Schema := fun j => ∃ i, i < l.length ∧ ∀ k s, l[k]? = some s → (s j ↔ k = i)

/-- A variant with fields of an externally tagged enum. -/
def variant (name : List Char) (s : Schema) : Schema := closed [(name, s)] [name]

/-- A variant of an enum with `tag = "type"` and the given name of the content. -/
def adjacent (content name : List Char) (s : Schema) : Schema :=
  object [(chars!"type", names [name]), (content, s)] [chars!"type", content]

/-- The schemas of values without parts: bytes, codes and the names of keys. All other schemas are made from them. -/
structure Leaves where
  byte : Schema
  code : BitfieldEnum → Schema
  ethernet : Schema
  state : Schema
  key : List Char → Prop

/-- What is published. `u8` of `schemars` has no maximum; `utils.rs` 177-203 and 309-335, `datapath.rs` 200-222: codes have
the schema of a string; names of keys are not restricted. -/
def published : Leaves where
  byte := natural
  code _ := string
  ethernet := string
  state := string
  key _ := True

end Schema

open Schema

/-- `ident.rs` 77-82 `Oui`. -/
def Oui.schemaOf (L : Leaves) : Schema := arrayOf 3 L.byte

/-- `ident.rs` 143-155 `Vendor`. -/
def Vendor.schemaOf (L : Leaves) : Schema :=
  object [(chars!"name", string), (chars!"oui", Oui.schemaOf L), (chars!"part", string), (chars!"revision", string),
    (chars!"serial", string), (chars!"date", nullable string)]
    [chars!"name", chars!"oui", chars!"part", chars!"revision", chars!"serial"]

/-- `ident.rs` 130-140 `VendorInfo`. -/
def VendorInfo.schemaOf (L : Leaves) : Schema :=
  object [(chars!"identifier", L.code identifierTable), (chars!"vendor", Vendor.schemaOf L)]
    [chars!"identifier", chars!"vendor"]

/-- `ident.rs` 476-491 `MediaInterfaceId`. -/
def MediaInterfaceId.schemaOf (L : Leaves) : Schema := oneOf [
  adjacent chars!"id" chars!"mmf" (L.code mmfMediaInterfaceIdTable),
  adjacent chars!"id" chars!"smf" (L.code smfMediaInterfaceIdTable),
  adjacent chars!"id" chars!"passive_copper" (L.code passiveCopperMediaInterfaceIdTable),
  adjacent chars!"id" chars!"active_cable" (L.code activeCableMediaInterfaceIdTable),
  adjacent chars!"id" chars!"base_t" (L.code baseTMediaInterfaceIdTable)]

/-- `monitors.rs` 93-104 `ReceiverPower`. -/
def ReceiverPower.schema : Schema := oneOf [variant chars!"average" number, variant chars!"peak_to_peak" number]

/-- `monitors.rs` 157-175 `Aux1Monitor`. -/
def Aux1Monitor.schemaOf (L : Leaves) : Schema :=
  oneOf [variant chars!"custom" (arrayOf 2 L.byte), variant chars!"tec_current" number]

/-- `monitors.rs` 177-195 `Aux2Monitor`. -/
def Aux2Monitor.schema : Schema := oneOf [variant chars!"laser_temperature" number, variant chars!"tec_current" number]

/-- `monitors.rs` 197-209 `Aux3Monitor`. -/
def Aux3Monitor.schema : Schema :=
  oneOf [variant chars!"laser_temperature" number, variant chars!"additional_supply_voltage" number]

/-- `monitors.rs` 117-153 `AuxMonitors`. -/
def AuxMonitors.schemaOf (L : Leaves) : Schema :=
  object [(chars!"aux1", nullable (Aux1Monitor.schemaOf L)), (chars!"aux2", nullable Aux2Monitor.schema),
    (chars!"aux3", nullable Aux3Monitor.schema), (chars!"custom", nullable (arrayOf 2 L.byte))] []

/-- `monitors.rs` 21-74 `Monitors`. -/
def Monitors.schemaOf (L : Leaves) : Schema :=
  object [(chars!"temperature", nullable number), (chars!"supply_voltage", nullable number),
    (chars!"receiver_power", nullable (array ReceiverPower.schema)),
    (chars!"transmitter_bias_current", nullable (array number)), (chars!"transmitter_power", nullable (array number)),
    (chars!"aux_monitors", nullable (AuxMonitors.schemaOf L))] []

/-- `datapath.rs` 93-105 `SffComplianceCode`. -/
def SffComplianceCode.schemaOf (L : Leaves) : Schema :=
  oneOf [adjacent chars!"code" chars!"extended" (L.code extendedSpecificationComplianceCodeTable),
    adjacent chars!"code" chars!"ethernet" L.ethernet]

/-- `datapath.rs` 680-732 `Sff8636Datapath`. -/
def Sff8636Datapath.schema : Schema :=
  object [(chars!"tx_enabled", boolean), (chars!"tx_los", boolean), (chars!"rx_los", boolean),
    (chars!"tx_adaptive_eq_fault", boolean), (chars!"tx_fault", boolean), (chars!"tx_lol", boolean),
    (chars!"rx_lol", boolean), (chars!"tx_cdr_enabled", boolean), (chars!"rx_cdr_enabled", boolean)]
    [chars!"tx_enabled", chars!"tx_los", chars!"rx_los", chars!"tx_adaptive_eq_fault", chars!"tx_fault", chars!"tx_lol",
      chars!"rx_lol", chars!"tx_cdr_enabled", chars!"rx_cdr_enabled"]

/-- `datapath.rs` 878-887 `OutputStatus`: one of the names. Variants with a description are in a `"oneOf"` of single names,
to which the same documents conform. -/
def OutputStatus.schema : Schema := names [chars!"valid", chars!"invalid"]

/-- `datapath.rs` 899-908 `LanePolarity`. -/
def LanePolarity.schema : Schema := names [chars!"normal", chars!"flipped"]

/-- `datapath.rs` 928-957 `ApplicationDescriptor`. -/
def ApplicationDescriptor.schemaOf (L : Leaves) : Schema :=
  object [(chars!"host_id", L.code hostElectricalInterfaceIdTable), (chars!"media_id", MediaInterfaceId.schemaOf L),
    (chars!"host_lane_count", L.byte), (chars!"media_lane_count", L.byte), (chars!"host_lane_assignment_options", L.byte),
    (chars!"media_lane_assignment_options", L.byte)]
    [chars!"host_id", chars!"media_id", chars!"host_lane_count", chars!"media_lane_count",
      chars!"host_lane_assignment_options", chars!"media_lane_assignment_options"]

/-- `datapath.rs` 763-861 `CmisLaneStatus`. -/
def CmisLaneStatus.schemaOf (L : Leaves) : Schema :=
  object [(chars!"state", L.state), (chars!"tx_input_polarity", nullable LanePolarity.schema),
    (chars!"tx_output_enabled", nullable boolean), (chars!"tx_auto_squelch_disable", nullable boolean),
    (chars!"tx_force_squelch", nullable boolean), (chars!"rx_output_polarity", nullable LanePolarity.schema),
    (chars!"rx_output_enabled", nullable boolean), (chars!"rx_auto_squelch_disable", nullable boolean),
    (chars!"rx_output_status", OutputStatus.schema), (chars!"tx_output_status", OutputStatus.schema),
    (chars!"tx_failure", nullable boolean), (chars!"tx_los", nullable boolean), (chars!"tx_lol", nullable boolean),
    (chars!"tx_adaptive_eq_fail", nullable boolean), (chars!"rx_los", nullable boolean), (chars!"rx_lol", nullable boolean)]
    [chars!"state", chars!"rx_output_status", chars!"tx_output_status"]

/-- `datapath.rs` 746-757 `CmisDatapath`. -/
def CmisDatapath.schemaOf (L : Leaves) : Schema :=
  object [(chars!"application", ApplicationDescriptor.schemaOf L),
    (chars!"lane_status", map L.key (CmisLaneStatus.schemaOf L))]
    [chars!"application", chars!"lane_status"]

/-- `datapath.rs` 28-64 `Datapath`. -/
def Datapath.schemaOf (L : Leaves) : Schema := oneOf [
  variant chars!"cmis" (object
    [(chars!"connector", L.code connectorTypeTable), (chars!"supported_lanes", L.byte),
      (chars!"datapaths", map L.key (CmisDatapath.schemaOf L))]
    [chars!"connector", chars!"supported_lanes", chars!"datapaths"]),
  variant chars!"sff8636" (object
    [(chars!"connector", L.code connectorTypeTable), (chars!"specification", SffComplianceCode.schemaOf L),
      (chars!"lanes", arrayOf 4 Sff8636Datapath.schema)]
    [chars!"connector", chars!"specification", chars!"lanes"])]

/-- `lib.rs` 266-290 `PowerState`. -/
def PowerState.schema : Schema := names [chars!"off", chars!"low", chars!"high"]

/-- `lib.rs` 307-323 `PowerMode`. -/
def PowerMode.schema : Schema :=
  object [(chars!"state", PowerState.schema), (chars!"software_override", nullable boolean)] [chars!"state"]

/-- `message.rs` 1030-1050 `LedState`. -/
def LedState.schema : Schema := names [chars!"off", chars!"on", chars!"blink"]

/-- `message.rs` 870-879 `JsonSchema for Status`: that of `u8`. -/
def Status.schema : Schema := published.byte

/-- `message.rs` 1018-1027 `JsonSchema for ExtendedStatus`: that of `u32`. -/
def ExtendedStatus.schema : Schema := natural

/-- The schemas that are published for the other types. -/
def VendorInfo.schema : Schema := VendorInfo.schemaOf published
def Monitors.schema : Schema := Monitors.schemaOf published
def Datapath.schema : Schema := Datapath.schemaOf published

end Xcvr
