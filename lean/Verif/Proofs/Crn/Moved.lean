import Verif.Spec.CrnMoved
import Verif.Proofs.Crn.Extend
import Verif.Proofs.Crn.Palettes

/-! # Crunch files with the same sections in other places -/

namespace Verif.Proofs.Crn

open Verif Verif.Spec Verif.Spec.Crn

theorem take_inside {l : List UInt8} {ofs size : Nat} {m : List UInt8} (hm : m.length = size)
    (h : (l.drop ofs).take size = m) (hs : 0 < size) : ofs + size ≤ l.length := by
  have := congrArg List.length h
  rw [List.length_take, List.length_drop, hm] at this
  omega

theorem section_same {f g : List UInt8} {ofs size ofs' size' : Nat} (h : SameSection f ofs size g ofs' size')
    {α : Type} (r : Reader α) : readSection f ofs size r = readSection g ofs' size' r := by
  obtain ⟨rfl, hi, hb⟩ := h
  have hlen : ((g.drop ofs').take size).length = size := by
    rw [List.length_take, List.length_drop]; omega
  have : sectionBits f ofs size = sectionBits g ofs' size := by
    unfold sectionBits
    by_cases hs : 0 < size
    · rw [if_pos ⟨hs, take_inside hlen hb hs⟩, if_pos ⟨hs, hi⟩, hb]
    · rw [if_neg fun e => hs e.1, if_neg fun e => hs e.1]
  unfold readSection
  rw [this]

theorem palette_same {f g : List UInt8} {p p' : Palette} (h : SamePalette f p g p')
    (r : Nat → Reader (List (List UInt8))) : filePalette f p r = filePalette g p' r := by
  unfold filePalette
  rw [section_same h.bytes, h.num]

theorem byteBits_append (l m : List UInt8) : byteBits (l ++ m) = byteBits l ++ byteBits m := by
  unfold byteBits
  exact List.flatMap_append

theorem section_prefix {f g : List UInt8} {ofs size ofs' size' : Nat} (hi : ofs' + size' ≤ g.length ∨ size' = 0)
    (hb : (f.drop ofs).take size <+: (g.drop ofs').take size') {α : Type} {r : Reader α} (hr : Ext r) {a : α}
    (h : readSection f ofs size r = some a) : readSection g ofs' size' r = some a := by
  obtain ⟨bits, rest, h1, h2, h3, h4⟩ := readSection_some h
  have hle := hb.length_le
  rw [List.length_take, List.length_drop, List.length_take, List.length_drop] at hle
  have hs : 0 < size' := by omega
  have hin : ofs' + size' ≤ g.length := by omega
  obtain ⟨t, ht⟩ := hb
  unfold sectionBits at h1
  rw [if_pos ⟨h3, h4⟩] at h1
  obtain rfl := Option.some.inj h1
  unfold readSection sectionBits
  rw [if_pos ⟨hs, hin⟩, ← ht, byteBits_append]
  simp only [Option.bind_eq_bind, Option.bind_some, hr _ _ _ _ h2]
  rfl

variable {f g : List UInt8} (h : Moved f g)
include h

theorem moved_codes : fileCodes f = fileCodes g := by
  unfold fileCodes
  rw [section_same h.tables, h.colours, h.alphas]

theorem moved_readLevel {α : Type} {r : Reader α} (hr : Ext r) {a : α}
    (e : readSection f (levelOfs f 0) (levelEnd f - levelOfs f 0) r = some a) :
    readSection g (levelOfs g 0) (levelEnd g - levelOfs g 0) r = some a := by
  have := h.levelInside
  exact section_prefix (by omega) h.level hr e

theorem moved_blocksX : Spec.Crn.blocksX f = Spec.Crn.blocksX g := by
  unfold Spec.Crn.blocksX; rw [h.width]

theorem moved_blocksY : Spec.Crn.blocksY f = Spec.Crn.blocksY g := by
  unfold Spec.Crn.blocksY; rw [h.height]

theorem moved_unpack {dxt : List UInt8} (e : Spec.Crn.unpack f = some dxt) : Spec.Crn.unpack g = some dxt := by
  unfold Spec.Crn.unpack at e ⊢
  rw [if_pos ⟨h.header, h.levels, h.complete⟩]
  split at e
  · simp only [Option.bind_eq_bind, Option.bind_eq_some_iff] at e ⊢
    obtain ⟨c, hc, colour, h1, alpha, h2, planes, h3, chunks, h4, h5⟩ := e
    have hok := fileCodes_prefix hc
    have hcol : CodeOk colour.endpointCode ∧ CodeOk colour.selectorCode := by
      unfold colourPlane at h1
      split at h1
      · obtain rfl := Option.some.inj h1
        exact ⟨Or.inl rfl, Or.inl rfl⟩
      · simp only [Option.bind_eq_bind, Option.bind_eq_some_iff] at h1
        obtain ⟨_, -, _, -, h1⟩ := h1
        obtain rfl := Option.some.inj h1
        exact ⟨hok.colourEndpoint, hok.colourSelector⟩
    have halp : CodeOk alpha.endpointCode ∧ CodeOk alpha.selectorCode := by
      unfold alphaPlane at h2
      split at h2
      · obtain rfl := Option.some.inj h2
        exact ⟨Or.inl rfl, Or.inl rfl⟩
      · simp only [Option.bind_eq_bind, Option.bind_eq_some_iff] at h2
        obtain ⟨_, -, _, -, h2⟩ := h2
        obtain rfl := Option.some.inj h2
        exact ⟨hok.alphaEndpoint, hok.alphaSelector⟩
    have hpl : ∀ p ∈ planes, CodeOk p.endpointCode ∧ CodeOk p.selectorCode := by
      unfold planesOf at h3
      intro p hp
      have key : p = colour ∨ p = alpha := by
        split at h3
        · obtain rfl := Option.some.inj h3
          simp only [List.mem_singleton] at hp; exact Or.inl hp
        split at h3
        · obtain rfl := Option.some.inj h3
          simp only [List.mem_cons, List.not_mem_nil, or_false] at hp; exact hp.symm
        split at h3
        · obtain rfl := Option.some.inj h3
          simp only [List.mem_cons, List.not_mem_nil, or_false, or_self] at hp; exact Or.inr hp
        split at h3
        · obtain rfl := Option.some.inj h3
          simp only [List.mem_singleton] at hp; exact Or.inr hp
        · cases h3
      rcases key with rfl | rfl
      · exact hcol
      · exact halp
    refine ⟨c, moved_codes h ▸ hc, colour, ?_, alpha, ?_, planes, h.format ▸ h3, chunks, ?_, ?_⟩
    · rw [← h1]
      unfold colourPlane
      rw [← h.colours]
      split
      · rfl
      · next hn => rw [palette_same (h.colour hn).1, palette_same (h.colour hn).2]
    · rw [← h2]
      unfold alphaPlane
      rw [← h.alphas]
      split
      · rfl
      · next hn => rw [palette_same (h.alpha hn).1, palette_same (h.alpha hn).2]
    · have hcc : chunkCount g = chunkCount f := by
        unfold chunkCount
        rw [h.faces, moved_blocksX h, moved_blocksY h]
      rw [hcc]
      exact moved_readLevel h (Ext.scan (fun c => Ext.chunk hok.encoding hpl c) _ _) h4
    · rw [← h.faces, ← moved_blocksX h, ← moved_blocksY h]
      exact h5
  · cases e

theorem moved_limits (hl : Limits f) (hsmall : g.length < 2 ^ 32) (hs : SectionsInside g) : Limits g := by
  refine ⟨hsmall, hs, h.faces ▸ hl.faces, ?_, ?_⟩
  · rw [← h.faces, ← moved_blocksY h]; exact hl.shape
  · rw [← h.faces, ← moved_blocksY h, ← moved_blocksX h]; exact hl.big

/-! ## Unity's variant -/

theorem moved_unityLevel {β : Type} (d : β) {r : Nat → List β → Reader β} (hr : ∀ w l, Ext (r w l)) {l : List β}
    (e : Unity.readLevel f d r = some l) : Unity.readLevel g d r = some l := by
  unfold Unity.readLevel at e ⊢
  have hbc : Unity.blockCount g = Unity.blockCount f := by
    unfold Unity.blockCount
    rw [h.faces, moved_blocksX h, moved_blocksY h]
  rw [← moved_blocksX h, ← moved_blocksY h, ← h.faces, hbc]
  simp only [Option.bind_eq_bind, Option.bind_eq_some_iff] at e ⊢
  obtain ⟨b, h1, h2⟩ := e
  exact ⟨b, moved_readLevel h (Ext.grow (fun l => hr _ l) _ _) h1, h2⟩

theorem moved_unityWhole {c : Codes} {l : List (List UInt8)} (hok : PrefixCodes c)
    (e : Unity.wholeBlocks f c = some l) : Unity.wholeBlocks g c = some l := by
  unfold Unity.wholeBlocks at e ⊢
  simp only [Option.bind_eq_bind, Option.bind_eq_some_iff] at e ⊢
  obtain ⟨colour, h1, alpha, h2, ⟨planes, order⟩, h3, bs, h4, h5⟩ := e
  have hcol : CodeOk colour.endpointCode ∧ CodeOk colour.selectorCode := by
    unfold Unity.colourPlane at h1
    split at h1
    · obtain rfl := Option.some.inj h1
      exact ⟨Or.inl rfl, Or.inl rfl⟩
    · simp only [Option.bind_eq_bind, Option.bind_eq_some_iff] at h1
      obtain ⟨_, -, h1⟩ := h1
      obtain rfl := Option.some.inj h1
      exact ⟨hok.colourEndpoint, hok.colourSelector⟩
  have halp : CodeOk alpha.endpointCode ∧ CodeOk alpha.selectorCode := by
    unfold Unity.alphaPlane at h2
    split at h2
    · obtain rfl := Option.some.inj h2
      exact ⟨Or.inl rfl, Or.inl rfl⟩
    · simp only [Option.bind_eq_bind, Option.bind_eq_some_iff] at h2
      obtain ⟨_, -, _, -, h2⟩ := h2
      obtain rfl := Option.some.inj h2
      exact ⟨hok.alphaEndpoint, hok.alphaSelector⟩
  have hpl : ∀ p ∈ planes, CodeOk p.endpointCode ∧ CodeOk p.selectorCode := by
    unfold Unity.planesOf at h3
    intro p hp
    have key : p = colour ∨ p = alpha := by
      split at h3
      · obtain rfl := (Prod.mk.inj (Option.some.inj h3)).1
        simp only [List.mem_singleton] at hp; exact Or.inl hp
      split at h3
      · obtain rfl := (Prod.mk.inj (Option.some.inj h3)).1
        simp only [List.mem_cons, List.not_mem_nil, or_false] at hp; exact hp
      split at h3
      · obtain rfl := (Prod.mk.inj (Option.some.inj h3)).1
        simp only [List.mem_cons, List.not_mem_nil, or_false, or_self] at hp; exact Or.inr hp
      split at h3
      · obtain rfl := (Prod.mk.inj (Option.some.inj h3)).1
        simp only [List.mem_singleton] at hp; exact Or.inr hp
      · cases h3
    rcases key with rfl | rfl
    · exact hcol
    · exact halp
  refine ⟨colour, ?_, alpha, ?_, (planes, order), h.format ▸ h3, bs, ?_, h5⟩
  · rw [← h1]
    unfold Unity.colourPlane Unity.colourPalettes
    rw [← h.colours, ← h.format]
    split
    · rfl
    · next hn => simp only [palette_same (h.colour hn).1, palette_same (h.colour hn).2]
  · rw [← h2]
    unfold Unity.alphaPlane
    rw [← h.alphas, ← h.format]
    split
    · rfl
    · next hn => rw [palette_same (h.alpha hn).1, palette_same (h.alpha hn).2]
  · refine moved_unityLevel h _ (fun w l => Ext.block hok.encoding (fun p hp => ?_) w l) h4
    obtain ⟨q, hq, rfl⟩ := List.mem_map.1 hp
    exact hpl q hq

theorem moved_unityHalf {c : Codes} {l : List (List UInt8)} (hok : PrefixCodes c)
    (e : Unity.halfBlocks f c = some l) : Unity.halfBlocks g c = some l := by
  unfold Unity.halfBlocks at e ⊢
  rw [← h.format, ← h.colours, ← h.alphas]
  simp only [Option.bind_eq_bind, Option.bind_eq_some_iff] at e ⊢
  obtain ⟨u, h0, colours, h1, sels, h2, e⟩ := e
  have hn : (colorEndpoints f).num ≠ 0 := by
    unfold Unity.halfBlocks.require' at h0
    split at h0
    · assumption
    · cases h0
  refine ⟨u, h0, colours, (section_same (h.colour hn).1.bytes _).symm.trans h1, sels, ?_, ?_⟩
  · rw [← (h.colour hn).2.num]
    exact (section_same (h.colour hn).2.bytes _).symm.trans h2
  split at e
  · next hf =>
    rw [if_pos hf]
    simp only [Option.bind_eq_some_iff] at e ⊢
    obtain ⟨u', h3, alphas, h4, asels, h5, bs, h6, h7⟩ := e
    have hm : (alphaEndpoints f).num ≠ 0 := by
      unfold Unity.halfBlocks.require' at h3
      split at h3
      · assumption
      · cases h3
    refine ⟨u', h3, alphas, (palette_same (h.alpha hm).1 _).symm.trans h4, asels, ?_, bs, ?_, h7⟩
    · rw [← (h.alpha hm).2.num]
      exact (section_same (h.alpha hm).2.bytes _).symm.trans h5
    · refine moved_unityLevel h _ (fun w l => Ext.etcBlock hok.encoding (fun p hp => ?_) w l) h6
      simp only [List.mem_cons, List.not_mem_nil, or_false] at hp
      rcases hp with rfl | rfl
      · exact ⟨hok.colourEndpoint, hok.colourSelector⟩
      · exact ⟨hok.alphaEndpoint, hok.alphaSelector⟩
  · next hf =>
    rw [if_neg hf]
    simp only [Option.bind_eq_some_iff] at e ⊢
    obtain ⟨u', h3, bs, h6, h7⟩ := e
    refine ⟨u', h3, bs, ?_, h7⟩
    refine moved_unityLevel h _ (fun w l => Ext.etcBlock hok.encoding (fun p hp => ?_) w l) h6
    simp only [List.mem_cons, List.not_mem_nil, or_false] at hp
    obtain rfl := hp
    exact ⟨hok.colourEndpoint, hok.colourSelector⟩

theorem moved_unityUnpack {dxt : List UInt8} (e : Unity.unpack f = some dxt) : Unity.unpack g = some dxt := by
  unfold Unity.unpack at e ⊢
  rw [if_pos ⟨h.header, h.levels, h.complete⟩]
  split at e
  · simp only [Option.bind_eq_bind, Option.bind_eq_some_iff] at e ⊢
    obtain ⟨c, hc, l, h1, h2⟩ := e
    have hok := fileCodes_prefix hc
    refine ⟨c, moved_codes h ▸ hc, l, ?_, h2⟩
    rw [← h.format]
    split at h1
    · next hf => rw [if_pos hf]; exact moved_unityHalf h hok h1
    · next hf => rw [if_neg hf]; exact moved_unityWhole h hok h1
  · cases e

end Verif.Proofs.Crn
