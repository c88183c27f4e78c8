import Verif.Proofs.Crn.UnityFile
import Verif.Spec.UnityEtcData

/-! # The ETC blocks that files of Unity's variant of Crunch hold -/

namespace Verif.Proofs.Crn.Unity

open Verif Verif.Spec.Crn Verif.Spec.Crn.Unity Verif.Proofs.Crn

/-! ## The bytes of base colours -/

theorem toNat_byte {n : Nat} (h : n < 256) : (UInt8.ofNat n).toNat = n := by
  rw [UInt8.toNat_ofNat']; exact Nat.mod_eq_of_lt h

theorem sumFits_of_near {a b : Nat} (ha : a < 32) (hb : b < 32) (h : near a b = true) :
    8 * a + (b + 8 - a) % 8 < 256 ∧ SumFits (8 * a + (b + 8 - a) % 8) := by
  unfold near at h
  simp only [Bool.and_eq_true, decide_eq_true_eq] at h
  unfold SumFits
  by_cases hab : a ≤ b
  · have e : (b + 8 - a) % 8 = b - a := by omega
    rw [e]
    have e1 : (8 * a + (b - a)) / 8 = a := by omega
    have e2 : (8 * a + (b - a)) % 8 = b - a := by omega
    rw [e1, e2]
    omega
  · have e : (b + 8 - a) % 8 = b + 8 - a := by omega
    rw [e]
    have e1 : (8 * a + (b + 8 - a)) / 8 = a := by omega
    have e2 : (8 * a + (b + 8 - a)) % 8 = b + 8 - a := by omega
    rw [e1, e2]
    omega

theorem apart_of_far {a b : Nat} (h : near a b = false) : b < 32 → Apart (16 * (a / 2) + b / 2) := by
  intro hb
  unfold near at h
  simp only [Bool.and_eq_false_iff, decide_eq_false_iff_not] at h
  unfold Apart
  omega

theorem twoColours_bytes {c d : EtcColour} (hc : ColourLt c) (hd : ColourLt d) {flip : Nat} (hf : flip < 2) :
    TwoColours (etcEndpointBytes c d flip) := by
  obtain ⟨c1, c2, c3, c4⟩ := hc
  obtain ⟨d1, d2, d3, d4⟩ := hd
  unfold etcEndpointBytes TwoColours
  by_cases h : (near c.r d.r && near c.g d.g && near c.b d.b) = true
  · have h' := h
    simp only [Bool.and_eq_true] at h'
    obtain ⟨⟨n1, n2⟩, n3⟩ := h'
    obtain ⟨l1, s1⟩ := sumFits_of_near c1 d1 n1
    obtain ⟨l2, s2⟩ := sumFits_of_near c2 d2 n2
    obtain ⟨l3, s3⟩ := sumFits_of_near c3 d3 n3
    simp only [h, if_true, List.getD_cons_zero, List.getD_cons_succ]
    rw [toNat_byte l1, toNat_byte l2, toNat_byte l3, toNat_byte (by omega)]
    exact ⟨fun _ => ⟨s1, s2, s3⟩, fun hm => absurd hm (by omega)⟩
  · have hf' : (near c.r d.r && near c.g d.g && near c.b d.b) = false := by simpa using h
    simp only [hf', Bool.false_eq_true, if_false, List.getD_cons_zero, List.getD_cons_succ]
    rw [toNat_byte (by omega), toNat_byte (by omega), toNat_byte (by omega), toNat_byte (by omega)]
    refine ⟨fun hm => absurd hm (by omega), fun _ => ?_⟩
    simp only [Bool.and_eq_false_iff] at hf'
    rcases hf' with (h1 | h2) | h3
    · exact .inl (apart_of_far h1 d1)
    · exact .inr (.inl (apart_of_far h2 d2))
    · exact .inr (.inr (apart_of_far h3 d3))

theorem oneColour_bytes {c : EtcColour} (hc : ColourLt c) : OneColour (etcEndpointBytes c c 0) := by
  obtain ⟨c1, c2, c3, c4⟩ := hc
  have hn : ∀ a, near a a = true := by intro a; simp [near]
  unfold etcEndpointBytes OneColour
  simp only [hn, Bool.and_self, if_true, List.getD_cons_zero, List.getD_cons_succ]
  rw [toNat_byte (by omega), toNat_byte (by omega), toNat_byte (by omega), toNat_byte (by omega)]
  have e1 : (32 * c.table + 4 * c.table + 2 + 0) / 4 = 9 * c.table := by omega
  have e2 : (32 * c.table + 4 * c.table + 2 + 0) / 32 = c.table := by omega
  rw [e1, e2]
  omega

theorem etcSelectorBytes_length (l : List Nat) : (etcSelectorBytes l).length = 4 := by
  simp [etcSelectorBytes, beBytes, leBytes_length]

theorem eacSelectorBytes_length (l : List Nat) : (eacSelectorBytes l).length = 6 := by
  simp [eacSelectorBytes, beBytes, leBytes_length]

/-! ## Lists of blocks -/

theorem mem_levelBlocks {β : Type} {d b : β} {f nx ny : Nat} {l : List β}
    (h : b ∈ Spec.Crn.Unity.levelBlocks d f nx ny l) : b = d ∨ b ∈ l := by
  unfold Spec.Crn.Unity.levelBlocks at h
  obtain ⟨i, _, h⟩ := List.mem_flatMap.mp h
  obtain ⟨j, _, h⟩ := List.mem_flatMap.mp h
  obtain ⟨k, _, rfl⟩ := List.mem_map.mp h
  rw [List.getD_eq_getElem?_getD]
  cases e : l[(i * even ny + j) * even nx + k]? with
  | none => exact .inl rfl
  | some v => exact .inr (List.mem_of_getElem? e)

theorem levelBlocks_length {β : Type} (d : β) (f nx ny : Nat) (l : List β) :
    (Spec.Crn.Unity.levelBlocks d f nx ny l).length = f * ny * nx := by
  unfold Spec.Crn.Unity.levelBlocks
  simp only [List.length_flatMap, List.length_map, List.length_range, List.map_const', List.sum_replicate_nat]
  rw [Nat.mul_assoc]

theorem flatten_le {L : List (List UInt8)} {m : Nat} (h : ∀ b ∈ L, b.length ≤ m) : L.flatten.length ≤ m * L.length := by
  induction L with
  | nil => simp
  | cons a L ih =>
    have h1 := h a (by simp)
    have h2 := ih fun b hb => h b (by simp [hb])
    rw [List.flatten_cons, List.length_append, List.length_cons, Nat.mul_succ]
    omega

theorem flatten_tight {L : List (List UInt8)} {m : Nat} (h : ∀ b ∈ L, b.length ≤ m)
    (hl : L.flatten.length = m * L.length) : ∀ b ∈ L, b.length = m := by
  induction L with
  | nil => simp
  | cons a L ih =>
    have h1 := h a (by simp)
    have h2 := flatten_le (L := L) fun b hb => h b (by simp [hb])
    rw [List.flatten_cons, List.length_append, List.length_cons, Nat.mul_succ] at hl
    intro b hb
    rcases List.mem_cons.mp hb with rfl | hb
    · omega
    · exact ih (fun b hb => h b (by simp [hb])) (by omega) b hb

theorem blockBytes_flatten {L : List (List UInt8)} {m : Nat} (h : ∀ b ∈ L, b.length = m) {k : Nat} (hk : k < L.length) :
    Spec.blockBytes m L.flatten k = L[k] := by
  induction L generalizing k with
  | nil => exact absurd hk (by simp)
  | cons a L ih =>
    have h1 := h a (by simp)
    unfold Spec.blockBytes at ih ⊢
    cases k with
    | zero =>
      rw [List.flatten_cons, Nat.zero_mul, List.drop_zero, List.take_append_of_le_length (by omega),
        List.take_of_length_le (by omega)]
      rfl
    | succ k =>
      have e : (k + 1) * m = a.length + k * m := by rw [Nat.succ_mul, h1]; omega
      rw [List.flatten_cons, e, List.drop_append, List.drop_of_length_le (by omega), List.nil_append,
        Nat.add_sub_cancel_left, List.getElem_cons_succ]
      exact ih (fun b hb => h b (by simp [hb])) (by simpa using hk)

/-! ## Two colours per block -/

theorem etcBlock_flip {code : List Nat} {colour : Indices} {others : List Indices} {w : Nat} {before : List EtcBlock}
    {bits rest : List Bool} {b : EtcBlock} (h : etcBlock code colour others w before bits = some (b, rest)) :
    b.flip < 2 := by
  unfold etcBlock at h
  obtain ⟨_, _, _, h⟩ := reader_bind.mp h
  obtain ⟨_, _, _, h⟩ := reader_bind.mp h
  obtain ⟨_, _, _, h⟩ := reader_bind.mp h
  obtain ⟨_, _, _, h⟩ := reader_bind.mp h
  obtain ⟨rfl, _⟩ := reader_pure.mp h
  simp only
  split <;> omega

theorem grow_all {α : Type} {r : List α → Reader α} {n : Nat} {l : List α} {bits rest : List Bool}
    (h : grow r n [] bits = some (l, rest)) {Q : α → Prop}
    (hq : ∀ before bits b rest, r before bits = some (b, rest) → Q b) : ∀ b ∈ l, Q b := by
  obtain ⟨_, bs, _, hs⟩ := grow_steps h
  intro b hb
  obtain ⟨k, hk⟩ := List.mem_iff_getElem?.mp hb
  exact hq _ _ _ _ (hs k b hk)

theorem readLevel_flip {file : List UInt8} {code : List Nat} {colour : Indices} {others : List Indices}
    {l : List EtcBlock} (h : readLevel file {} (etcBlock code colour others) = some l) :
    l.length = faces file * blocksY file * blocksX file ∧ ∀ b ∈ l, b.flip < 2 := by
  obtain ⟨bl, bits, rest, _, _, hg, rfl⟩ := readLevel_some h
  refine ⟨levelBlocks_length .., fun b hb => ?_⟩
  rcases mem_levelBlocks hb with rfl | hb
  · decide
  · exact grow_all hg (fun _ _ _ _ h => etcBlock_flip h) b hb

theorem getD_colour {cols : List EtcColour} (h : ∀ c ∈ cols, ColourLt c) (i : Nat) : ColourLt (cols.getD i {}) := by
  rw [List.getD_eq_getElem?_getD]
  cases e : cols[i]? with
  | none => exact ⟨by decide, by decide, by decide, by decide⟩
  | some c => exact h c (List.mem_of_getElem? e)

/-- A block: `pre` are the alpha values, `e` and `s` the halves of the colours. -/
def IsTwo (m : Nat) (b : List UInt8) : Prop :=
  ∃ pre e s : List UInt8, b = pre ++ (e ++ s) ∧ pre.length ≤ m ∧ e.length = 4 ∧ s.length = 4 ∧ TwoColours e

theorem halfBlocks_two {file : List UInt8} {cs : Codes} {bl : List (List UInt8)} (hl : Limits file)
    (h : halfBlocks file cs = some bl) :
    bl.length = faces file * blocksY file * blocksX file ∧
    ∀ b ∈ bl, IsTwo (if format file = 12 then 8 else 0) b := by
  letI := Build.release
  unfold halfBlocks at h
  obtain ⟨hce, h⟩ := require'_bind h
  obtain ⟨cols, h2, h⟩ := Option.bind_eq_some_iff.mp h
  obtain ⟨sels, h3, h⟩ := Option.bind_eq_some_iff.mp h
  obtain ⟨_, _, v1⟩ := etcColours_ok h2 (hl.sections.colours hce).1
  have hcol : ∀ b : EtcBlock, b.flip < 2 → ∃ e s, etcColourBytes cols sels b = e ++ s ∧ e.length = 4 ∧
      s.length = 4 ∧ TwoColours e := fun b hf =>
    ⟨_, _, rfl, rfl, etcSelectorBytes_length _, twoColours_bytes (getD_colour v1 _) (getD_colour v1 _) hf⟩
  by_cases f12 : format file = 12
  · rw [if_pos f12] at h ⊢
    obtain ⟨hae, h⟩ := require'_bind h
    obtain ⟨alphas, h4, h⟩ := Option.bind_eq_some_iff.mp h
    obtain ⟨asels, h5, h⟩ := Option.bind_eq_some_iff.mp h
    obtain ⟨l, h6, h⟩ := Option.bind_eq_some_iff.mp h
    obtain rfl := Option.some.inj h
    obtain ⟨E', _, rfl, _, _⟩ := alphaEndpoints_ok h4 (hl.sections.alphas hae).1
    obtain ⟨hlen, hflip⟩ := readLevel_flip h6
    refine ⟨by rw [List.length_map, hlen], fun b hb => ?_⟩
    obtain ⟨k, hk, rfl⟩ := List.mem_map.mp hb
    obtain ⟨e, s, he, e4, s4, ht⟩ := hcol k (hflip k hk)
    refine ⟨_, e, s, by rw [he], ?_, e4, s4, ht⟩
    unfold eacBytes
    rw [List.length_append, eacSelectorBytes_length]
    have : ((E'.map (leBytes 2)).getD (k.endpoint.getD 1 0) []).length ≤ 2 := by
      rw [List.getD_eq_getElem?_getD, List.getElem?_map]
      cases E'[k.endpoint.getD 1 0]? with
      | none => exact Nat.zero_le _
      | some v => exact Nat.le_of_eq (leBytes_length 2 v)
    omega
  · rw [if_neg f12] at h ⊢
    obtain ⟨hae, h⟩ := require'_bind h
    obtain ⟨l, h6, h⟩ := Option.bind_eq_some_iff.mp h
    obtain rfl := Option.some.inj h
    obtain ⟨hlen, hflip⟩ := readLevel_flip h6
    refine ⟨by rw [List.length_map, hlen], fun b hb => ?_⟩
    obtain ⟨k, hk, rfl⟩ := List.mem_map.mp hb
    obtain ⟨e, s, he, e4, s4, ht⟩ := hcol k (hflip k hk)
    exact ⟨[], e, s, by rw [he]; rfl, Nat.le_refl _, e4, s4, ht⟩

/-! ## One colour per block -/

def IsOne (m : Nat) (b : List UInt8) : Prop :=
  ∃ pre e s : List UInt8, b = pre ++ (e ++ s) ∧ pre.length ≤ m ∧ e.length ≤ 4 ∧ s.length ≤ 4 ∧
    (e.length = 4 → OneColour e)

theorem colourPlane_one {file : List UInt8} {cs : Codes} {p : Plane} (hl : Limits file)
    (hf : format file = 13 ∨ format file = 14) (h : Spec.Crn.Unity.colourPlane file cs = some p) :
    (∀ e ∈ p.endpoints, e.length = 4 ∧ OneColour e) ∧ ∀ s ∈ p.selectors, s.length = 4 := by
  letI := Build.release
  unfold Spec.Crn.Unity.colourPlane at h
  split at h
  · obtain rfl := Option.some.inj h
    exact ⟨by simp, by simp⟩
  · rename_i hce
    obtain ⟨⟨e, s⟩, h1, h⟩ := Option.bind_eq_some_iff.mp h
    obtain rfl := Option.some.inj h
    unfold Spec.Crn.Unity.colourPalettes at h1
    rw [if_pos hf] at h1
    obtain ⟨e', h2, h1⟩ := Option.bind_eq_some_iff.mp h1
    obtain ⟨s', h3, h1⟩ := Option.bind_eq_some_iff.mp h1
    obtain ⟨rfl, rfl⟩ : e' = e ∧ s' = s := by simpa using h1
    obtain ⟨cols, h4, rfl⟩ := readSection_map h2
    obtain ⟨sels, h5, rfl⟩ := readSection_map h3
    obtain ⟨_, _, v1⟩ := etcColours_ok h4 (hl.sections.colours hce).1
    refine ⟨fun e he => ?_, fun s hs => ?_⟩
    · obtain ⟨c, hc, rfl⟩ := List.mem_map.mp he
      exact ⟨rfl, oneColour_bytes (v1 c hc)⟩
    · obtain ⟨v, _, rfl⟩ := List.mem_map.mp hs
      exact etcSelectorBytes_length _

theorem alphaPlane_len {file : List UInt8} {cs : Codes} {p : Plane} (hl : Limits file)
    (hf : format file = 14) (h : Spec.Crn.Unity.alphaPlane file cs = some p) :
    (∀ e ∈ p.endpoints, e.length = 2) ∧ ∀ s ∈ p.selectors, s.length = 6 := by
  letI := Build.release
  unfold Spec.Crn.Unity.alphaPlane at h
  split at h
  · obtain rfl := Option.some.inj h
    exact ⟨by simp, by simp⟩
  · rename_i hae
    obtain ⟨e, h1, h⟩ := Option.bind_eq_some_iff.mp h
    obtain ⟨s, h2, h⟩ := Option.bind_eq_some_iff.mp h
    obtain rfl := Option.some.inj h
    obtain ⟨sels, _, rfl⟩ := readSection_map h2
    obtain ⟨E', _, rfl, _, _⟩ := alphaEndpoints_ok h1 (hl.sections.alphas hae).1
    refine ⟨fun e he => ?_, fun s hs => ?_⟩
    · obtain ⟨v, _, rfl⟩ := List.mem_map.mp he
      exact leBytes_length 2 v
    · obtain ⟨v, _, rfl⟩ := List.mem_map.mp hs
      exact eacSelectorBytes_length _

theorem getD_cases {α : Type} (l : List (List α)) (i : Nat) : l.getD i [] = [] ∨ l.getD i [] ∈ l := by
  rw [List.getD_eq_getElem?_getD]
  cases e : l[i]? with
  | none => exact .inl rfl
  | some v => exact .inr (List.mem_of_getElem? e)

theorem getD_le {l : List (List UInt8)} {m : Nat} (h : ∀ e ∈ l, e.length = m) (i : Nat) : (l.getD i []).length ≤ m := by
  rcases getD_cases l i with h' | h'
  · rw [h']; exact Nat.zero_le _
  · exact Nat.le_of_eq (h _ h')

theorem wholeBlocks_one {file : List UInt8} {cs : Codes} {bl : List (List UInt8)} (hl : Limits file)
    (hf : format file = 13 ∨ format file = 14) (h : wholeBlocks file cs = some bl) :
    bl.length = faces file * blocksY file * blocksX file ∧
    ∀ b ∈ bl, IsOne (if format file = 14 then 8 else 0) b := by
  obtain ⟨colour, h2, h⟩ := Option.bind_eq_some_iff.mp h
  obtain ⟨alpha, h3, h⟩ := Option.bind_eq_some_iff.mp h
  obtain ⟨⟨planes, order⟩, h4, h⟩ := Option.bind_eq_some_iff.mp h
  obtain ⟨l, h5, h⟩ := Option.bind_eq_some_iff.mp h
  obtain rfl := Option.some.inj h
  obtain ⟨l', bits, rest, _, _, hg, rfl⟩ := readLevel_some h5
  refine ⟨by rw [List.length_map, levelBlocks_length], fun b hb => ?_⟩
  obtain ⟨k, _, rfl⟩ := List.mem_map.mp hb
  obtain ⟨ce, cse⟩ := colourPlane_one hl hf h2
  have hone : ∀ i, (colour.endpoints.getD i []).length = 4 → OneColour (colour.endpoints.getD i []) := by
    intro i hi
    rcases getD_cases colour.endpoints i with h' | h'
    · rw [h'] at hi; exact absurd hi (by simp)
    · exact (ce _ h').2
  unfold Spec.Crn.Unity.planesOf at h4
  rcases hf with f | f
  · rw [f, if_pos (.inr rfl)] at h4
    obtain ⟨rfl, rfl⟩ : [colour] = planes ∧ [0] = order := by simpa using h4
    rw [f, if_neg (by decide)]
    refine ⟨[], colour.endpoints.getD (k.endpoint.getD 0 0) [], colour.selectors.getD (k.selector.getD 0 0) [], ?_, Nat.le_refl _, getD_le (fun e he => (ce e he).1) _, getD_le cse _, hone _⟩
    simp [Spec.Crn.Unity.blockBytes, Plane.block]
  · rw [f, if_neg (by omega), if_pos (.inr rfl)] at h4
    obtain ⟨rfl, rfl⟩ : [colour, alpha] = planes ∧ [1, 0] = order := by simpa using h4
    obtain ⟨ae, ase⟩ := alphaPlane_len hl f h3
    rw [f, if_pos rfl]
    refine ⟨alpha.endpoints.getD (k.endpoint.getD 1 0) [] ++ alpha.selectors.getD (k.selector.getD 1 0) [],
      colour.endpoints.getD (k.endpoint.getD 0 0) [], colour.selectors.getD (k.selector.getD 0 0) [], ?_, ?_,
       getD_le (fun e he => (ce e he).1) _, getD_le cse _, hone _⟩
    · simp [Spec.Crn.Unity.blockBytes, Plane.block]
    · have a1 := getD_le ae (k.endpoint.getD 1 0)
      have a2 := getD_le ase (k.selector.getD 1 0)
      rw [List.length_append]; omega

end Verif.Proofs.Crn.Unity
