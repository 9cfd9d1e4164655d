import Verif.Model.Cli
import Verif.Model.LargeAccess

/-!
# `controller/src/bin/xcvradm.rs`: commands

Only what the commands ask of the controller and what they print from; formatting is not modelled.
-/

namespace Xcvr

/-- `match p { Ok(v) => v, Err(e) => f(e) }`. -/
def Prog.orElse {α : Type} : Prog α → (CtlError → Prog α) → Prog α
  | .ret a, _ => .ret a
  | .fail e, f => f e
  | .panic, _ => .panic
  | .rpc c k, f => .rpc c fun r => (k r).orElse f

namespace Cli

open Controller

/-- The loop of `xcvradm.rs` 1196-1202 and 1282-1288: read each chunk from all modules and append; `append` is
unwrapped. -/
def readChunks (m : ModuleId) (result : Res Bytes) : List MemoryRead → Prog (Res Bytes)
  | [] => return result
  | rd :: rds => do
    let res ← Controller.read m rd
    match result.append res with
    | none => Prog.panic
    | some result => readChunks m result rds

/-- `xcvradm.rs` 1193-1203 (`ReadLower`) and 1279-1289 (`ReadUpper`), after the reads are set up: what is then printed. -/
def readMany (m : ModuleId) (reads : List MemoryRead) : Prog (Res Bytes) := do
  let result ← Prog.ofExec (Exec.unwrap (ModuleResult.success m (List.replicate m.count [])))
  readChunks m result reads

/-- `xcvradm.rs` 1263-1278 and 1309-1324: the upper page a command addresses. The flags `--sff` and `--cmis` exclude each
other and one is required, and `--bank` excludes `--sff`. -/
def upperPage (cmis : Bool) (page : U8) (bank : Option U8) : Except MgmtError Page :=
  if cmis then
    (match bank with
      | some b => cmisNewBanked page b
      | none => cmisNewUnbanked page).map fun p => .cmis (.upper p)
  else (sffUpperPageNew page).map fun p => .sff8636 (.upper p)

/-- `xcvradm.rs` 1186-1192 and 1267, 1276: `MemoryRead::build_many` for either kind of page. -/
def buildReads : Page → U8 → U8 → Exec LargeAccessError (List MemoryRead)
  | .sff8636 p => sffLargeRead p
  | .cmis p => cmisLargeRead p

/-- Why a write is refused before anything is sent. -/
inductive WriteSetupError where
  | tooLong
  | access (e : MgmtError)
  deriving DecidableEq, Repr

/-- `xcvradm.rs` 1219-1226 and 1308-1326: the write for some data. -/
def buildWrite (page : Page) (offset : U8) (data : Bytes) : Except WriteSetupError MemoryWrite :=
  if 256 ≤ data.length then .error .tooLong
  else match page with
    | .sff8636 p => (MemAccess.newWrite p offset (BitVec.ofNat 8 data.length)).mapError .access
    | .cmis p => (MemAccess.newWrite p offset (BitVec.ofNat 8 data.length)).mapError .access

/-- `Status::PRESENT`, `message.rs` 738. -/
def present : Controller.Status := 0b00000001

/-- `xcvradm.rs` 1455-1516 `address_transceivers`: the modules a selection stands for. `ManagementInterface` is compared
by `management_interface()`, which fails for unsupported identifiers. -/
def addressTransceivers : Transceivers → Prog ModuleId
  | .all => return ModuleId.allSidecar
  | .present => do
    let r ← status ModuleId.allSidecar
    return (filterModuleData r.modules r.data fun _ st => st.contains present).1
  | .powerState state => do
    let r ← power ModuleId.allSidecar
    return (filterModuleData r.modules r.data fun _ s => s.state == state).1
  | .kind kind => do
    let r ← identifier ModuleId.allSidecar
    return (filterModuleData r.modules r.data fun _ id =>
      match id.managementInterface with
      | .ok iface => iface == kind
      | .error _ => false).1
  | .index m => return m

/-- `message.rs` 951-957: a status is an extended status with the same bits. -/
def extend (s : Controller.Status) : U32 := s.setWidth 32

/-- `xcvradm.rs` 984-1003: the extended status, or the plain status if that fails in any way. -/
def statusCmd (m : ModuleId) : Prog (Res U32) :=
  (extendedStatus m).orElse fun _ => do
    let r ← status m
    return ⟨r.modules, r.data.map extend, r.failures⟩

/-- `bitflags` `contains` on extended status. -/
def containsFlags (s o : U32) : Bool := s &&& o == o

/-- `xcvradm.rs` 289-306 `StatusKind`, without the separator. -/
inductive StatusKind where
  | parseable
  | normal
  | all
  | limited (withFlags withoutFlags : U32)
  deriving DecidableEq, Repr

/-- `xcvradm.rs` 965-983. -/
def statusKind (withFlags withoutFlags : Option U32) (all parseable : Bool) : Exec Unit StatusKind :=
  match withFlags, withoutFlags, all, parseable with
  | none, none, false, true => .ok .parseable
  | none, none, false, false => .ok .normal
  | none, none, true, false => .ok .all
  | w, wo, false, false => .ok (.limited (w.getD 0) (wo.getD 0))
  | _, _, _, _ => .panic

/-- `xcvradm.rs` 1619-1640: the truth values printed for `StatusKind::Limited`, one per module. -/
def limitedColumn (withFlags withoutFlags : U32) (r : Res U32) : Exec Unit (List (U8 × Bool)) :=
  if withFlags = 0 ∧ withoutFlags = 0 then .panic
  else .ok (r.iter.map fun p =>
    (p.1,
      if withoutFlags = 0 then containsFlags p.2 withFlags
      else if withFlags = 0 then !containsFlags p.2 withoutFlags
      else containsFlags p.2 withFlags && !containsFlags p.2 withoutFlags))

/-- `xcvradm.rs` 1522-1530 `print_failures`: the lines printed. -/
def failureLines (f : FailedModules TransceiverError) : List (U8 × TransceiverError) :=
  if f.modules.count > 0 then f.modules.toIndices.zip f.errors else []

end Cli

end Xcvr
