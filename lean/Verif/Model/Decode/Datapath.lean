import Verif.Model.Decode.Common
import Verif.Model.BTree

/-! # `decode/src/datapath.rs` -/

namespace Xcvr

/-- `datapath.rs` 685-732 `Sff8636Datapath`. -/
structure Sff8636Datapath where
  txEnabled : Bool
  txLos : Bool
  rxLos : Bool
  txAdaptiveEqFault : Bool
  txFault : Bool
  txLol : Bool
  rxLol : Bool
  txCdrEnabled : Bool
  rxCdrEnabled : Bool
  deriving DecidableEq, Repr

/-- `datapath.rs` 884-887 `OutputStatus`. -/
inductive OutputStatus where
  | valid
  | invalid
  deriving DecidableEq, Repr

/-- `datapath.rs` 905-908 `LanePolarity`. -/
inductive LanePolarity where
  | normal
  | flipped
  deriving DecidableEq, Repr

/-- `datapath.rs` 933-957 `ApplicationDescriptor`. -/
structure ApplicationDescriptor where
  hostId : HostElectricalInterfaceId
  mediaId : MediaInterfaceId
  hostLaneCount : U8
  mediaLaneCount : U8
  hostLaneAssignmentOptions : U8
  mediaLaneAssignmentOptions : U8
  deriving DecidableEq, Repr

/-- `datapath.rs` 768-861 `CmisLaneStatus`. -/
structure CmisLaneStatus where
  state : CmisDatapathState
  txInputPolarity : Option LanePolarity
  txOutputEnabled : Option Bool
  txAutoSquelchDisable : Option Bool
  txForceSquelch : Option Bool
  rxOutputPolarity : Option LanePolarity
  rxOutputEnabled : Option Bool
  rxAutoSquelchDisable : Option Bool
  rxOutputStatus : OutputStatus
  txOutputStatus : OutputStatus
  txFailure : Option Bool
  txLos : Option Bool
  txLol : Option Bool
  txAdaptiveEqFail : Option Bool
  rxLos : Option Bool
  rxLol : Option Bool
  deriving DecidableEq, Repr

/-- `datapath.rs` 751-757 `CmisDatapath`. -/
structure CmisDatapath where
  application : ApplicationDescriptor
  laneStatus : List (U8 × CmisLaneStatus)
  deriving DecidableEq, Repr

/-- `datapath.rs` 34-64 `Datapath`. -/
inductive Datapath where
  | cmis (connector : ConnectorType) (supportedLanes : U8) (datapaths : List (U8 × CmisDatapath))
  | sff8636 (connector : ConnectorType) (specification : SffComplianceCode) (lanes : List Sff8636Datapath)
  deriving DecidableEq, Repr

namespace Datapath

open Decode

/-- `datapath.rs` 225-383 `reads`. -/
def reads (id : Identifier) : Exec DecodeError (List MemoryRead) :=
  byKind id
    (do let txEnable ← mgmt (MemAccess.newRead SffPage.lower 86 1)
        let los ← mgmt (MemAccess.newRead SffPage.lower 3 3)
        let cdr ← mgmt (MemAccess.newRead SffPage.lower 98 1)
        let page ← mgmt (sffUpperPageNew 0)
        let compliance ← mgmt (MemAccess.newRead (SffPage.upper page) 130 2)
        let page ← mgmt (sffUpperPageNew 0)
        let extendedCompliance ← mgmt (MemAccess.newRead (SffPage.upper page) 192 1)
        return [txEnable, los, cdr, compliance, extendedCompliance])
    (do let page ← mgmt (cmisNewUnbanked 0x00)
        let connectorType ← mgmt (MemAccess.newRead (CmisPage.upper page) 203 7)
        let page ← mgmt (cmisNewBanked 0x11 0)
        let laneConfig ← mgmt (MemAccess.newRead (CmisPage.upper page) 206 8)
        let mediaType ← mgmt (MemAccess.newRead CmisPage.lower 85 1)
        let page ← mgmt (cmisNewUnbanked 0x01)
        let mediaAssignments ← mgmt (MemAccess.newRead (CmisPage.upper page) 176 8)
        let descriptors ← [86, 94, 102, 110].mapM fun start => mgmt (MemAccess.newRead CmisPage.lower start 8)
        let page ← mgmt (cmisNewUnbanked 0x01)
        let controlSupport ← mgmt (MemAccess.newRead (CmisPage.upper page) 155 4)
        let page ← mgmt (cmisNewBanked 0x10 0)
        let controls0 ← mgmt (MemAccess.newRead (CmisPage.upper page) 129 4)
        let page ← mgmt (cmisNewBanked 0x10 0)
        let controls1 ← mgmt (MemAccess.newRead (CmisPage.upper page) 134 6)
        let page ← mgmt (cmisNewBanked 0x11 0)
        let datapathState ← mgmt (MemAccess.newRead (CmisPage.upper page) 128 4)
        let page ← mgmt (cmisNewBanked 0x11 0)
        let laneStatus ← mgmt (MemAccess.newRead (CmisPage.upper page) 132 2)
        let page ← mgmt (cmisNewBanked 0x11 0)
        let txLaneFlags ← mgmt (MemAccess.newRead (CmisPage.upper page) 135 4)
        let page ← mgmt (cmisNewBanked 0x11 0)
        let rxLaneFlags ← mgmt (MemAccess.newRead (CmisPage.upper page) 147 2)
        return [connectorType, laneConfig, mediaType, mediaAssignments] ++ descriptors ++
          [controlSupport, controls0, controls1, datapathState, laneStatus, txLaneFlags, rxLaneFlags])

/-- `datapath.rs` 413-443: the flags of one SFF-8636 lane. `lane + 4` cannot overflow for lanes below four. -/
def sffLane (txEnable : U8) (los : Bytes) (cdr lane : U8) : Exec DecodeError Sff8636Datapath := do
  let txDisabled ← extractBit txEnable lane
  let txLane := lane + 4
  let txLos ← extractBit (← idx los 0) txLane
  let txAdaptiveEqFault ← extractBit (← idx los 1) txLane
  let txFault ← extractBit (← idx los 1) lane
  let txLol ← extractBit (← idx los 2) txLane
  let rxLos ← extractBit (← idx los 0) lane
  let rxLol ← extractBit (← idx los 2) lane
  let txCdrEnabled ← extractBit cdr txLane
  let rxCdrEnabled ← extractBit cdr lane
  return { txEnabled := !txDisabled, txLos, rxLos, txAdaptiveEqFault, txFault, txLol, rxLol, txCdrEnabled, rxCdrEnabled }

/-- `datapath.rs` 387-454: the SFF-8636 arm of `parse`. -/
def parseSff (rs : List Bytes) : Exec DecodeError Datapath := do
  let (txEnable, rs) ← nextUnwrap rs
  assertLen txEnable 1
  let (los, rs) ← nextUnwrap rs
  assertLen los 3
  let (cdr, rs) ← nextUnwrap rs
  assertLen cdr 1
  let (compliance, rs) ← nextUnwrap rs
  assertLen compliance 2
  let (extendedCompliance, _) ← nextUnwrap rs
  assertLen extendedCompliance 1
  let connector : ConnectorType := Bf.ofByte (← idx compliance 0)
  let specification := SffComplianceCode.new (← idx compliance 1) (← idx extendedCompliance 0)
  let lanes ← [0, 1, 2, 3].mapM fun lane => do sffLane (← idx txEnable 0) los (← idx cdr 0) lane
  return .sff8636 connector specification lanes

/-- `datapath.rs` 960-979 `ApplicationDescriptor::from_bytes`. -/
def applicationFromBytes (mediaType : MediaType) (bytes : U8 × U8 × U8 × U8) (media : U8) :
    Option ApplicationDescriptor :=
  match MediaInterfaceId.fromU8 mediaType bytes.2.1 with
  | none => none
  | some mediaId =>
    some { hostId := Bf.ofByte bytes.1
           mediaId
           hostLaneCount := (bytes.2.2.1 &&& 0xf0) >>> 4
           mediaLaneCount := bytes.2.2.1 &&& 0x0f
           hostLaneAssignmentOptions := bytes.2.2.2
           mediaLaneAssignmentOptions := media }

/-- `chunks_exact(4)` on one read, with `try_into::<[u8; 4]>` of `datapath.rs` 506. -/
def quads : Bytes → List (U8 × U8 × U8 × U8)
  | a :: b :: c :: d :: rest => (a, b, c, d) :: quads rest
  | _ => []

/-- `ident.rs` 446 `HostElectricalInterfaceId::EndOfList`, code 0xff. -/
def endOfList : HostElectricalInterfaceId := Bf.ofByte 0xff

/-- `datapath.rs` 500-517: the loop over descriptors from index `i` on, with the `break` at the end of the list. -/
def applications (mediaType : MediaType) (assignments : Bytes) :
    Nat → List (U8 × U8 × U8 × U8) → Exec DecodeError (List ApplicationDescriptor)
  | _, [] => .ok []
  | i, d :: ds => do
    let assignment ← idx assignments i
    let app ← Exec.unwrap (applicationFromBytes mediaType d assignment)
    if app.hostId = endOfList then return []
    else
      let rest ← applications mediaType assignments (i + 1) ds
      return app :: rest

/-- `datapath.rs` 1014 (`LaneDatapathConfig::from`): the application selector of a lane configuration byte. -/
def appSelectCode (x : U8) : U8 := (x &&& 0xf0) >>> 4

/-- `datapath.rs` 528-540: one lane's contribution to the map of active applications. -/
def activate (apps : List ApplicationDescriptor) (active : List (U8 × ApplicationDescriptor × List U8)) (lane config : U8) :
    Exec DecodeError (List (U8 × ApplicationDescriptor × List U8)) :=
  if appSelectCode config ≠ 0 then do
    let app ← Exec.unwrap apps[(appSelectCode config - 1).toNat]?
    return BMap.upsert u8Lt (appSelectCode config)
      (fun e => let e := e.getD (app, []); (e.1, e.2 ++ [lane])) active
  else return active

/-- `datapath.rs` 542-553 `supported_bit_is_set`. -/
def supportedBitIsSet (support bit control lane : U8) : Option Bool :=
  match extractBit support bit with
  | .ok true =>
    match extractBit control lane with
    | .ok b => some b
    | _ => none
  | _ => none

/-- `datapath.rs` 575-581 and 589-595. -/
def polarity (x : Bool) : LanePolarity := if x then .flipped else .normal

/-- `datapath.rs` 602-611. `1 << lane` panics for lanes above 7, which do not occur. -/
def outputStatus (byte lane : U8) : OutputStatus := if byte &&& ((1 : U8) <<< lane) ≠ 0 then .valid else .invalid

/-- `datapath.rs` 628-630: the state nibble of a lane. -/
def stateNibble (datapathState : Bytes) (lane : U8) : Exec DecodeError U8 := do
  let byte ← idx datapathState (lane / 2).toNat
  let shift : U8 := if lane % 2 = 1 then 0 else 4
  return (byte &&& ((0x0f : U8) <<< shift)) >>> shift

/-- The seven reads that describe the lanes, `datapath.rs` 557-563. -/
structure LaneReads where
  support : Bytes
  controls0 : Bytes
  controls1 : Bytes
  datapathState : Bytes
  laneStatus : Bytes
  txLaneFlags : Bytes
  rxLaneFlags : Bytes
  deriving DecidableEq, Repr

/-- `datapath.rs` 567-651: the status of one lane. -/
def laneStatusOf (r : LaneReads) (lane : U8) : Exec DecodeError CmisLaneStatus := do
  let s0 ← idx r.support 0
  let txInputPolarity := (supportedBitIsSet s0 0 (← idx r.controls0 0) lane).map polarity
  let txOutputEnabled := (supportedBitIsSet s0 1 (← idx r.controls0 1) lane).map (!·)
  let txAutoSquelchDisable := supportedBitIsSet s0 2 (← idx r.controls0 2) lane
  let txForceSquelch := supportedBitIsSet s0 3 (← idx r.controls0 3) lane
  let s1 ← idx r.support 1
  let rxOutputPolarity := (supportedBitIsSet s1 0 (← idx r.controls1 3) lane).map polarity
  let rxOutputEnabled := (supportedBitIsSet s1 1 (← idx r.controls1 4) lane).map (!·)
  let rxAutoSquelchDisable := supportedBitIsSet s1 2 (← idx r.controls1 5) lane
  let rxOutputStatus := outputStatus (← idx r.laneStatus 0) lane
  let txOutputStatus := outputStatus (← idx r.laneStatus 1) lane
  let s2 ← idx r.support 2
  let txFailure := supportedBitIsSet s2 0 (← idx r.txLaneFlags 0) lane
  let txLos := supportedBitIsSet s2 1 (← idx r.txLaneFlags 1) lane
  let txLol := supportedBitIsSet s2 2 (← idx r.txLaneFlags 2) lane
  let txAdaptiveEqFail := supportedBitIsSet s2 3 (← idx r.txLaneFlags 3) lane
  let s3 ← idx r.support 3
  let rxLos := supportedBitIsSet s3 1 (← idx r.rxLaneFlags 0) lane
  let nibble ← stateNibble r.datapathState lane
  let state ← Exec.ofExcept (CmisDatapathState.tryFrom nibble)
  let rxLol := supportedBitIsSet s3 2 (← idx r.rxLaneFlags 1) lane
  return { state, txInputPolarity, txOutputEnabled, txAutoSquelchDisable, txForceSquelch, rxOutputPolarity,
           rxOutputEnabled, rxAutoSquelchDisable, rxOutputStatus, txOutputStatus, txFailure, txLos, txLol,
           txAdaptiveEqFail, rxLos, rxLol }

/-- `datapath.rs` 566-662, the body of the inner loop: add one lane's status to the datapath of its application. -/
def addLane (r : LaneReads) (appSel : U8) (app : ApplicationDescriptor) (dps : List (U8 × CmisDatapath)) (lane : U8) :
    Exec DecodeError (List (U8 × CmisDatapath)) := do
  let st ← laneStatusOf r lane
  return BMap.upsert u8Lt appSel
    (fun e => let dp := e.getD ⟨app, []⟩; { dp with laneStatus := BMap.upsert u8Lt (1 + lane) (fun _ => st) dp.laneStatus })
    dps

/-- `datapath.rs` 565-664: the two nested loops. -/
def datapathsOf (r : LaneReads) (active : List (U8 × ApplicationDescriptor × List U8)) :
    Exec DecodeError (List (U8 × CmisDatapath)) :=
  active.foldlM (fun dps e => e.2.2.foldlM (addLane r e.1 e.2.1) dps) []

/-- `datapath.rs` 455-670: the CMIS arm of `parse`. -/
def parseCmis (rs : List Bytes) : Exec DecodeError Datapath := do
  let (connectorType, rs) ← nextUnwrap rs
  assertLen connectorType 7
  let connector : ConnectorType := Bf.ofByte (← idx connectorType 0)
  let supportedLanes := ~~~ (← idx connectorType 6)
  let (laneConfig, rs) ← nextUnwrap rs
  assertLen laneConfig 8
  let (mediaTypeRead, rs) ← nextUnwrap rs
  let mediaType : MediaType := Bf.ofByte (← idx mediaTypeRead 0)
  let (mediaAssignments, rs) ← nextUnwrap rs
  let (d0, rs) ← nextUnwrap rs
  let (d1, rs) ← nextUnwrap rs
  let (d2, rs) ← nextUnwrap rs
  let (d3, rs) ← nextUnwrap rs
  let apps ← applications mediaType mediaAssignments 0 (quads d0 ++ quads d1 ++ quads d2 ++ quads d3)
  let active ← (laneConfig.zipIdx).foldlM (fun a (c, lane) => activate apps a (BitVec.ofNat 8 lane) c) []
  let (support, rs) ← nextUnwrap rs
  let (controls0, rs) ← nextUnwrap rs
  let (controls1, rs) ← nextUnwrap rs
  let (datapathState, rs) ← nextUnwrap rs
  let (laneStatus, rs) ← nextUnwrap rs
  let (txLaneFlags, rs) ← nextUnwrap rs
  let (rxLaneFlags, _) ← nextUnwrap rs
  let datapaths ← datapathsOf { support, controls0, controls1, datapathState, laneStatus, txLaneFlags, rxLaneFlags } active
  return .cmis connector supportedLanes datapaths

/-- `datapath.rs` 385-673 `parse`. -/
def parse (id : Identifier) (rs : List Bytes) : Exec DecodeError Datapath := byKind id (parseSff rs) (parseCmis rs)

/-- `datapath.rs` 388-396: five calls of `next`; 458-563: fifteen. -/
def asks (id : Identifier) (rs : List Bytes) : Bool := asksByKind id (rs.length < 5) (rs.length < 15)

/-- `datapath.rs` 224 `impl ParseFromModule for Datapath`. -/
def decoder : ModuleDecoder Datapath := ⟨reads, parse, asks⟩

end Datapath

end Xcvr
