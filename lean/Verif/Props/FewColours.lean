import Verif.Proofs.FewColours

/-!
# Property C90: how many colours a block can show

`limits` (Spec/FewColours.lean) is a table of formats, channels and numbers. No block of a decoded picture shows
more different values than the table says, and the numbers cannot be lowered.
-/

namespace Verif.Props

open Verif Verif.Spec Verif.Proofs

variable [Build]

/-- **C90** No 4 × 4 block of a decoded picture shows more values than the limit of its format. -/
theorem C90_at_most (fmt : Format) (view : View) (n : Nat) (hl : (fmt, view, n) ∈ limits)
    (data : List UInt8) (w h : Nat) (image out : List UInt32) (hs : fmt.SizesOk w h image)
    (hok : decoder fmt data w h image = .ok (.ok (), out)) : AtMost n view w h out :=
  atMost_of_tabled (tabled hl) hs (legal_of (limits_legal hl) data w h) hok

/-- **C90** Every limit is reached: there is a picture of one block that decodes to as many values. -/
theorem C90_reached (fmt : Format) (view : View) (n : Nat) (hl : (fmt, view, n) ∈ limits) :
    ∃ data out, decoder fmt data 4 4 (List.replicate 16 0) = .ok (.ok (), out) ∧
      ∃ vs : List Nat, vs.Nodup ∧ vs.length = n ∧ ∀ v ∈ vs, SeenIn view 4 4 out 0 0 v := by
  obtain ⟨⟨_, _, blk⟩, _, _, rfl, rfl, hlen, hn, hd⟩ := limits_reached _ hl
  replace hlen : blk.length = fmt.blockSize := hlen
  have hleg := legal_of (limits_legal hl) blk 4 4
  have hs : fmt.SizesOk 4 4 (List.replicate 16 0) := by
    cases fmt <;> exact ⟨by decide, by decide, by decide⟩
  have hneed : fmt.need 4 4 = fmt.blockSize := by cases fmt <;> rfl
  obtain ⟨out, e, d⟩ := (decoder_spec fmt).success blk 4 4 (List.replicate 16 0) hs
    (by rw [hlen]; exact Nat.le_of_eq hneed) (by decide) hleg
  refine ⟨blk, out, e, _, hd, (List.length_map _).trans hn, fun v hv => ?_⟩
  obtain ⟨i, hi, rfl⟩ := List.mem_map.mp hv
  have hi : i < 16 := List.mem_range.mp (List.mem_filter.mp hi).1
  have hb : blockBytes fmt.blockSize blk 0 = blk := by
    unfold blockBytes
    rw [Nat.zero_mul, List.drop_zero, ← hlen, List.take_length]
  refine ⟨i % 4, i / 4, _, by omega, by omega, by omega, by omega, d.pixel _ _ (by omega) (by omega), ?_⟩
  have h1 : i / 4 / 4 * ceilDiv 4 4 + i % 4 / 4 = 0 := by
    have a : i / 4 / 4 = 0 := by omega
    have b : i % 4 / 4 = 0 := by omega
    rw [a, b, Nat.zero_mul]
  have h2 : i / 4 % 4 * 4 + i % 4 % 4 = i := by omega
  unfold pixelAt
  rw [h1, h2, hb]

/-- **C90** A picture with more different values in one of its blocks is out of reach: no data decode to it. -/
theorem C90_out_of_reach (fmt : Format) (view : View) (n : Nat) (hl : (fmt, view, n) ∈ limits)
    (w h : Nat) (picture : List UInt32) (a b : Nat) (vs : List Nat) (hd : vs.Nodup)
    (hv : ∀ v ∈ vs, SeenIn view w h picture a b v) (hn : n < vs.length)
    (data : List UInt8) (image : List UInt32) (hs : fmt.SizesOk w h image) :
    decoder fmt data w h image ≠ .ok (.ok (), picture) := fun hok =>
  absurd (C90_at_most fmt view n hl data w h image picture hs hok a b vs hd hv) (Nat.not_le.mpr hn)

/- The first limit applies to a picture of 5 × 3 pixels. -/
example : ((.bc1, .whole, 4) : Format × View × Nat) ∈ limits ∧
    Format.SizesOk .bc1 5 3 (List.replicate 15 0xffffffff) ∧
    ∃ out, decoder .bc1 (List.replicate 16 0xa7) 5 3 (List.replicate 15 0xffffffff) = .ok (.ok (), out) := by
  have hs : Format.SizesOk .bc1 5 3 (List.replicate 15 0xffffffff) := ⟨by decide, by decide, by decide⟩
  obtain ⟨o, e, _⟩ := (decoder_spec .bc1).success (List.replicate 16 0xa7) 5 3
    (List.replicate 15 0xffffffff) hs (by decide) (by decide) (fun _ _ => trivial)
  exact ⟨by decide, hs, o, e⟩

/- A picture of one block with five colours: white, black, red, green and blue. BC1 cannot show it. -/
example (data : List UInt8) (image : List UInt32) (hs : Format.SizesOk .bc1 4 4 image) :
    decoder .bc1 data 4 4 image ≠ .ok (.ok (), [0xffffffff, 0xff000000, 0xffff0000, 0xff00ff00, 0xff0000ff]
      ++ List.replicate 11 0xffffffff) :=
  C90_out_of_reach .bc1 .whole 4 (by decide) 4 4 _ 0 0
    [0xffffffff, 0xff000000, 0xffff0000, 0xff00ff00, 0xff0000ff] (by decide)
    (fun v hv => by
      simp only [List.mem_cons, List.not_mem_nil, or_false] at hv
      rcases hv with rfl | rfl | rfl | rfl | rfl
      · exact ⟨0, 0, _, by decide, by decide, by decide, by decide, rfl, rfl⟩
      · exact ⟨1, 0, _, by decide, by decide, by decide, by decide, rfl, rfl⟩
      · exact ⟨2, 0, _, by decide, by decide, by decide, by decide, rfl, rfl⟩
      · exact ⟨3, 0, _, by decide, by decide, by decide, by decide, rfl, rfl⟩
      · exact ⟨0, 1, _, by decide, by decide, by decide, by decide, rfl, rfl⟩)
    (by decide) data image hs

end Verif.Props
