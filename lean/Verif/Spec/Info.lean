import Verif.Spec.Controller

/-! # Specification: decoded module information -/

namespace Xcvr.Spec

open Xcvr

variable {P : Type}

/-- Two lists of the same length whose items are related pairwise. -/
inductive Pairs {α β : Type} (R : α → β → Prop) : List α → List β → Prop where
  | nil : Pairs R [] []
  | cons {a b l l'} : R a b → Pairs R l l' → Pairs R (a :: l) (b :: l')

/-- The bytes port `p` returned for each of the reads, in a series of exchanges. -/
def DataOf (t : List Exchange) (p : Nat) (rds : List MemoryRead) (ds : List Bytes) : Prop :=
  Pairs (fun rd b => ∃ x ∈ t, ∃ g, requestOf x = some (.read g rd) ∧ okIn x p = some b) rds ds

/-- What a module of a kind yields, given the exchanges: the value decoded from its own bytes, the error of one of its own
reads, or the error of decoding its own bytes. -/
def Yields (d : ModuleDecoder P) (t : List Exchange) (id : Identifier) (p : Nat) : Except TransceiverError P → Prop
  | .ok v => ∃ rds ds, d.reads id = .ok rds ∧ DataOf t p rds ds ∧ d.parse id ds = .ok v
  | .error e => ∃ rds, d.reads id = .ok rds ∧
      ((∃ rd ∈ rds, ∃ x ∈ t, ∃ g, requestOf x = some (.read g rd) ∧ errIn x p = some e) ∨
       ∃ ds e', DataOf t p rds ds ∧ d.parse id ds = .err e' ∧ e = .decode e')

/-- Port `p` identified itself with byte `b`. -/
def Identified (t : List Exchange) (p : Nat) (b : U8) : Prop := okAmong t p = some [b]

/-- Port `p` is a success with value `v`: it identified itself in `t₁` and yielded `v` in `t₂`. -/
def Gave (d : ModuleDecoder P) (t₁ t₂ : List Exchange) (p : Nat) (v : P) : Prop :=
  ∃ b, Identified t₁ p b ∧ Yields d t₂ (Bf.ofByte b) p (.ok v)

/-- The error of port `p`: of its identification, of one of its reads, or of decoding its bytes. -/
def OwnError (d : ModuleDecoder P) (t₁ t₂ : List Exchange) (p : Nat) (e : TransceiverError) : Prop :=
  errAmong t₁ p = some e ∨ ∃ b, Identified t₁ p b ∧ Yields d t₂ (Bf.ofByte b) p (.error e)

/-- Kinds are worked on in the order of their codes, the codes 0x1f and 0x20 (which have no meaning) last. -/
def kindRank (b : U8) : Nat := if b = 0x1f ∨ b = 0x20 then 256 + b.toNat else b.toNat

/-- The order in which modules are worked on: those that failed identification first, then by kind; within a kind by
port. -/
def Before (t₁ : List Exchange) (p q : Nat) : Prop :=
  match okAmong t₁ p, okAmong t₁ q with
  | none, none => p < q
  | none, some _ => True
  | some _, none => False
  | some a, some b => kindRank (a.headD 0) < kindRank (b.headD 0) ∨ (a = b ∧ p < q)

/-- What the operations that decode module information guarantee for modules `m`: `t₁` are the exchanges that identify the
modules, `t₂` the later ones. -/
structure Decoded (d : ModuleDecoder P) (m : ModuleId) (t₁ t₂ : List Exchange) (res : Res P) : Prop where
  /-- One value per success, one error per failure. -/
  wf : WF res
  /-- Every module once. -/
  split : Partition m res.modules res.failures.modules
  /-- Values are decoded from the module's own bytes. -/
  ok : ∀ p v, okAt res p = some v → Gave d t₁ t₂ p v
  /-- Failures did fail. -/
  failed : ∀ p, Failed res p → ∃ e, OwnError d t₁ t₂ p e

end Xcvr.Spec
