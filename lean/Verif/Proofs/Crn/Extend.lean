import Verif.Proofs.Crn.Write
import Verif.Spec.UnityFile

/-! # Readers do not look behind what they read -/

namespace Verif.Proofs.Crn

open Verif Verif.Spec Verif.Spec.Crn

/-- More bits behind those that the reader takes change nothing. -/
def Ext {α : Type} (r : Reader α) : Prop :=
  ∀ bits more a rest, r bits = some (a, rest) → r (bits ++ more) = some (a, rest ++ more)

theorem Ext.pure {α : Type} (a : α) : Ext (Pure.pure a : Reader α) := fun bits more b rest h => by
  obtain ⟨rfl, rfl⟩ := reader_pure.1 h
  exact reader_pure.2 ⟨rfl, rfl⟩

theorem Ext.bind {α β : Type} {r : Reader α} {f : α → Reader β} (h : Ext r) (h' : ∀ a, Ext (f a)) :
    Ext (r >>= f) := fun bits more b rest e => by
  obtain ⟨a, mid, e1, e2⟩ := reader_bind.1 e
  exact reader_bind.2 ⟨a, mid ++ more, h _ _ _ _ e1, h' a _ _ _ _ e2⟩

theorem Ext.require (p : Prop) [Decidable p] : Ext (Crn.require p) := fun bits more b rest h => by
  obtain ⟨hp, rfl⟩ := reader_require.1 h
  exact reader_require.2 ⟨hp, rfl⟩

theorem Ext.ite {α : Type} {p : Prop} [Decidable p] {r r' : Reader α} (h : Ext r) (h' : Ext r') :
    Ext (if p then r else r') := by
  split
  · exact h
  · exact h'

/-- A prefix code as it is in a file, or none. -/
def CodeOk (code : List Nat) : Prop := code = [] ∨ (LensOk code ∧ usedSpace code 16 ≤ 2 ^ 16)

theorem Ext.symbol {code : List Nat} (h : CodeOk code) : Ext (Crn.symbol code) := fun bits more s rest e => by
  obtain ⟨h1, h2, rfl⟩ := readSymbol_some e
  rcases h with rfl | ⟨hl, hk⟩
  · exact absurd h1 (Nat.not_lt_zero _)
  · rw [List.append_assoc]
    exact Enc.Writes.symbol hl hk h2.1 _

theorem Ext.scan {α : Type} {r : α → Reader α} (h : ∀ a, Ext (r a)) : ∀ n a, Ext (Crn.scan r n a)
  | 0, _ => Ext.pure _
  | n + 1, a => (h a).bind fun b => (Ext.scan h n b).bind fun _ => Ext.pure _

theorem Ext.grow {α : Type} {r : List α → Reader α} (h : ∀ a, Ext (r a)) : ∀ n a, Ext (Unity.grow r n a)
  | 0, _ => Ext.pure _
  | n + 1, a => (h a).bind fun _ => Ext.grow h n _

theorem Ext.forPlanes {α β : Type} {r : Plane → α → Reader β} : ∀ (ps : List Plane) (as : List α),
    (∀ p ∈ ps, ∀ a, Ext (r p a)) → Ext (Crn.forPlanes r ps as)
  | [], _, _ => Ext.pure _
  | _ :: _, [], _ => Ext.pure _
  | p :: ps, a :: as, h => (h p (List.mem_cons_self ..) a).bind fun _ =>
      (Ext.forPlanes ps as fun q hq => h q (List.mem_cons_of_mem _ hq)).bind fun _ => Ext.pure _

theorem Ext.forEach {σ α β : Type} {r : σ → α → Reader β} : ∀ (ps : List σ) (as : List α),
    (∀ p ∈ ps, ∀ a, Ext (r p a)) → Ext (Unity.forEach r ps as)
  | [], _, _ => Ext.pure _
  | _ :: _, [], _ => Ext.pure _
  | p :: ps, a :: as, h => (h p (List.mem_cons_self ..) a).bind fun _ =>
      (Ext.forEach ps as fun q hq => h q (List.mem_cons_of_mem _ hq)).bind fun _ => Ext.pure _

theorem Ext.nextPaletteIndex {code : List Nat} (h : CodeOk code) (num prev : Nat) :
    Ext (Crn.nextPaletteIndex code num prev) :=
  (Ext.symbol h).bind fun _ => (Ext.require _).bind fun _ => Ext.pure _

theorem Ext.encodings {code : List Nat} (h : CodeOk code) : ∀ l, Ext (Crn.encodings code l)
  | [] => (Ext.symbol h).bind fun _ => (Ext.require _).bind fun _ => Ext.pure _
  | _ :: _ => Ext.pure _

theorem Ext.chunk {code : List Nat} {planes : List Plane} (h : CodeOk code)
    (hp : ∀ p ∈ planes, CodeOk p.endpointCode ∧ CodeOk p.selectorCode) (c : Chunk) :
    Ext (Crn.chunk code planes c) :=
  (Ext.encodings h _).bind fun _ =>
    (Ext.forPlanes _ _ fun p hm _ => Ext.scan (fun _ => Ext.nextPaletteIndex (hp p hm).1 _ _) _ _).bind fun _ =>
      (Ext.scan (fun _ => Ext.forPlanes _ _ fun p hm _ => Ext.nextPaletteIndex (hp p hm).2 _ _) _ _).bind fun _ =>
        Ext.pure _

/-! ## Unity's variant -/

theorem Ext.selectorIndex {p : Unity.Indices} (h : CodeOk p.selectorCode) : Ext (Unity.selectorIndex p) :=
  (Ext.symbol h).bind fun _ => (Ext.require _).bind fun _ => Ext.pure _

theorem Ext.refs {code : List Nat} (h : CodeOk code) : Ext (do
    let s ← Crn.symbol code
    Crn.require (s < 256)
    Pure.pure s) :=
  (Ext.symbol h).bind fun _ => (Ext.require _).bind fun _ => Ext.pure _

theorem Ext.block {code : List Nat} {planes : List Unity.Indices} (h : CodeOk code)
    (hp : ∀ p ∈ planes, CodeOk p.endpointCode ∧ CodeOk p.selectorCode) (w : Nat) (before : List Unity.Block) :
    Ext (Unity.block code planes w before) :=
  (Ext.ite (Ext.refs h) (Ext.pure _)).bind fun _ =>
    (Ext.ite (Ext.forEach _ _ fun p hm _ => Ext.nextPaletteIndex (hp p hm).1 _ _) (Ext.pure _)).bind fun _ =>
      (Ext.forEach _ _ fun p hm _ => Ext.selectorIndex (hp p hm).2).bind fun _ => Ext.pure _

theorem Ext.etcBlock {code : List Nat} {colour : Unity.Indices} {others : List Unity.Indices} (h : CodeOk code)
    (hp : ∀ p ∈ colour :: others, CodeOk p.endpointCode ∧ CodeOk p.selectorCode) (w : Nat)
    (before : List Unity.EtcBlock) : Ext (Unity.etcBlock code colour others w before) :=
  (Ext.ite (Ext.refs h) (Ext.pure _)).bind fun _ =>
    (Ext.ite (Ext.forEach _ _ fun p hm _ => Ext.nextPaletteIndex (hp p hm).1 _ _) (Ext.pure _)).bind fun _ =>
      (Ext.forEach _ _ fun p hm _ => Ext.selectorIndex (hp p hm).2).bind fun _ =>
        (Ext.ite (Ext.pure _) (Ext.nextPaletteIndex (hp _ (List.mem_cons_self ..)).1 _ _)).bind fun _ => Ext.pure _

/-! ## The codes of a file -/

theorem lengthRun_le {code before l : List Nat} {bits rest : List Bool} (hb : ∀ v ∈ before, v ≤ 16)
    (h : lengthRun code before bits = some (l, rest)) : ∀ v ∈ l, v ≤ 16 := by
  unfold lengthRun at h
  obtain ⟨s, mid, -, h⟩ := reader_bind.1 h
  split at h
  · obtain ⟨rfl, -⟩ := reader_pure.1 h
    intro v hv
    rw [List.mem_singleton.1 hv]
    assumption
  split at h
  · obtain ⟨n, mid, -, h⟩ := reader_bind.1 h
    obtain ⟨rfl, -⟩ := reader_pure.1 h
    intro v hv
    rw [(List.mem_replicate.1 hv).2]
    omega
  split at h
  · obtain ⟨n, mid, -, h⟩ := reader_bind.1 h
    obtain ⟨rfl, -⟩ := reader_pure.1 h
    intro v hv
    rw [(List.mem_replicate.1 hv).2]
    omega
  · obtain ⟨-, h⟩ := require_bind.1 h
    obtain ⟨n, mid, -, h⟩ := reader_bind.1 h
    obtain ⟨rfl, -⟩ := reader_pure.1 h
    intro v hv
    rw [(List.mem_replicate.1 hv).2, List.getLastD_eq_getLast?]
    cases e : before.getLast? with
    | none => exact Nat.zero_le _
    | some x => exact hb x (List.mem_of_getLast? e)

theorem lengthRuns_le {code : List Nat} {total : Nat} : ∀ n (before : List Nat) {l : List Nat} {bits rest : List Bool},
    (∀ v ∈ before, v ≤ 16) → lengthRuns code total n before bits = some (l, rest) →
    l.length = total ∧ ∀ v ∈ l, v ≤ 16
  | 0, before, l, bits, rest, hb, h => by
    unfold lengthRuns at h
    obtain ⟨hl, h⟩ := require_bind.1 h
    obtain ⟨rfl, -⟩ := reader_pure.1 h
    exact ⟨hl, hb⟩
  | n + 1, before, l, bits, rest, hb, h => by
    unfold lengthRuns at h
    split at h
    · next hl =>
      obtain ⟨rfl, -⟩ := reader_pure.1 h
      exact ⟨hl, hb⟩
    · obtain ⟨run, mid, h1, h⟩ := reader_bind.1 h
      obtain ⟨-, h⟩ := require_bind.1 h
      refine lengthRuns_le n _ (fun v hv => ?_) h
      rcases List.mem_append.1 hv with hv | hv
      · exact hb v hv
      · exact lengthRun_le hb h1 v hv

theorem prefixCode_codeOk {lens : List Nat} {bits rest : List Bool} (h : prefixCode bits = some (lens, rest)) :
    CodeOk lens := by
  unfold prefixCode at h
  obtain ⟨total, m1, -, h⟩ := reader_bind.1 h
  obtain ⟨ht, h⟩ := require_bind.1 h
  obtain ⟨n, m2, -, h⟩ := reader_bind.1 h
  obtain ⟨-, h⟩ := require_bind.1 h
  obtain ⟨ls, m3, -, h⟩ := reader_bind.1 h
  obtain ⟨-, h⟩ := require_bind.1 h
  obtain ⟨l, m4, h1, h⟩ := reader_bind.1 h
  obtain ⟨hk, h⟩ := require_bind.1 h
  obtain ⟨rfl, -⟩ := reader_pure.1 h
  obtain ⟨hl, hv⟩ := lengthRuns_le _ _ (fun v hv => absurd hv (List.not_mem_nil)) h1
  exact Or.inr ⟨⟨by omega, by omega, hv⟩, hk⟩

theorem codePair_codeOk {num : Nat} {p : List Nat × List Nat} {bits rest : List Bool}
    (h : codePair num bits = some (p, rest)) : CodeOk p.1 ∧ CodeOk p.2 := by
  unfold codePair at h
  split at h
  · obtain ⟨rfl, -⟩ := reader_pure.1 h
    exact ⟨Or.inl rfl, Or.inl rfl⟩
  · obtain ⟨e, m, h1, h⟩ := reader_bind.1 h
    obtain ⟨s, m, h2, h⟩ := reader_bind.1 h
    obtain ⟨rfl, -⟩ := reader_pure.1 h
    exact ⟨prefixCode_codeOk h1, prefixCode_codeOk h2⟩

/-- The codes of a file are prefix codes. -/
structure PrefixCodes (c : Codes) : Prop where
  encoding : CodeOk c.encoding
  colourEndpoint : CodeOk c.colourEndpoint
  colourSelector : CodeOk c.colourSelector
  alphaEndpoint : CodeOk c.alphaEndpoint
  alphaSelector : CodeOk c.alphaSelector

theorem fileCodes_prefix {file : List UInt8} {c : Codes} (h : fileCodes file = some c) : PrefixCodes c := by
  unfold fileCodes readSection at h
  simp only [Option.bind_eq_bind, Option.bind_eq_some_iff] at h
  obtain ⟨bits, -, ⟨c', rest⟩, h, h'⟩ := h
  obtain rfl : c' = c := by simpa using h'
  unfold codes at h
  obtain ⟨e, m, h1, h⟩ := reader_bind.1 h
  obtain ⟨-, h⟩ := require_bind.1 h
  obtain ⟨p, m, h2, h⟩ := reader_bind.1 h
  obtain ⟨q, m, h3, h⟩ := reader_bind.1 h
  obtain ⟨rfl, -⟩ := reader_pure.1 h
  exact ⟨prefixCode_codeOk h1, (codePair_codeOk h2).1, (codePair_codeOk h2).2, (codePair_codeOk h3).1,
    (codePair_codeOk h3).2⟩

end Verif.Proofs.Crn
