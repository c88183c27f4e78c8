import Verif.Proofs.Crn.Symbol

/-!
# The symbol decoder reads the bits of the stream
-/

namespace Verif.Proofs.Crn

open Verif Verif.Model.Crn Verif.Spec.Crn

variable [Build]

/-! ## Bits -/

omit [Build] in
@[simp] theorem msbBits_length (n v : Nat) : (msbBits n v).length = n := by simp [msbBits]

omit [Build] in
theorem msbBits_append (n m a b : Nat) (hb : b < 2 ^ m) :
    msbBits (n + m) (a * 2 ^ m + b) = msbBits n a ++ msbBits m b := by
  apply List.ext_getElem
  · simp
  · intro i h1 h2
    have hi : i < n + m := by simpa using h1
    by_cases h : i < n
    · rw [List.getElem_append_left (by simpa using h)]
      simp only [msbBits, List.getElem_map, List.getElem_range]
      rw [Nat.mul_comm, Nat.testBit_two_pow_mul_add _ hb, if_neg (by omega)]
      congr 1
      omega
    · rw [List.getElem_append_right (by simpa using h)]
      simp only [msbBits, List.getElem_map, List.getElem_range, List.length_map, List.length_range]
      rw [Nat.mul_comm, Nat.testBit_two_pow_mul_add _ hb, if_pos (by omega)]
      congr 1
      omega

omit [Build] in
theorem ofBits_append (a b : List Bool) : ofBits (a ++ b) = ofBits a * 2 ^ b.length + ofBits b := by
  have key : ∀ (b : List Bool) (x : Nat), b.foldl (fun a b => 2 * a + b.toNat) x
      = x * 2 ^ b.length + b.foldl (fun a b => 2 * a + b.toNat) 0 := by
    intro b
    induction b with
    | nil => simp
    | cons c b ih =>
      intro x
      simp only [List.foldl_cons, List.length_cons]
      rw [ih (2 * x + c.toNat), ih (2 * 0 + c.toNat), Nat.pow_succ, Nat.mul_zero, Nat.zero_add,
        Nat.add_mul]
      rw [Nat.mul_comm 2 x, Nat.mul_assoc, Nat.mul_comm 2 (2 ^ b.length)]
      omega
  unfold ofBits
  rw [List.foldl_append, key]

omit [Build] in
theorem ofBits_msbBits {n v : Nat} (h : v < 2 ^ n) : ofBits (msbBits n v) = v := by
  induction n generalizing v with
  | zero => rw [show v = 0 by omega]; rfl
  | succ n ih =>
    have hp := Nat.two_pow_pos n
    have e : v = v / 2 ^ n * 2 ^ n + v % 2 ^ n := by
      rw [Nat.mul_comm]; exact (Nat.div_add_mod v (2 ^ n)).symm
    have hm : v % 2 ^ n < 2 ^ n := Nat.mod_lt _ hp
    have h1 : v / 2 ^ n < 2 := by rw [Nat.div_lt_iff_lt_mul hp, ← Nat.pow_succ']; exact h
    have hb := msbBits_append 1 n (v / 2 ^ n) (v % 2 ^ n) hm
    rw [← e, Nat.add_comm 1 n] at hb
    rw [hb, ofBits_append, ih hm, msbBits_length]
    conv => rhs; rw [e]
    congr 2
    have h2 : v / 2 ^ n = 0 ∨ v / 2 ^ n = 1 := by
      clear e hb
      generalize v / 2 ^ n = q at *
      omega
    rcases h2 with h0 | h0 <;> rw [h0] <;> rfl

omit [Build] in
theorem msbBits_inj {n a b : Nat} (ha : a < 2 ^ n) (hb : b < 2 ^ n) (h : msbBits n a = msbBits n b) :
    a = b := by
  rw [← ofBits_msbBits ha, ← ofBits_msbBits hb, h]

omit [Build] in
theorem prefix_split {α : Type} {a b x y : List α} (h : a ++ b <+: x ++ y)
    (hl : a.length = x.length) : a = x ∧ b <+: y := by
  obtain ⟨t, ht⟩ := h
  rw [List.append_assoc] at ht
  obtain ⟨h1, h2⟩ := List.append_inj ht hl
  exact ⟨h1, ⟨t, h2⟩⟩

/-! ## The state of the decoder -/

/-- The bits of the stream that are not yet in the bit buffer. -/
def remBits (c : Codec) (p : Nat) : List Bool := byteBits ((c.buf.take (c.last + 1)).drop p)

/-- The stream continues with the bits `bs`. -/
structure St (c : Codec) (bs : List Bool) : Prop where
  cnt : c.bitCount ≤ 32
  next : c.next ≤ c.last + 1
  ready : c.next < c.buf.length
  last : c.last < c.buf.length
  bits : ∃ V, V < 2 ^ c.bitCount ∧ c.bitBuf = V * 2 ^ (32 - c.bitCount) ∧
    bs <+: msbBits c.bitCount V ++ remBits c c.next

omit [Build] in
theorem st_buf_lt {c : Codec} {bs : List Bool} (h : St c bs) : c.bitBuf < 2 ^ 32 := by
  obtain ⟨V, hV, e, _⟩ := h.bits
  have hc := h.cnt
  rw [e, show (2 : Nat) ^ 32 = 2 ^ c.bitCount * 2 ^ (32 - c.bitCount) by
    rw [← Nat.pow_add]; congr 1; omega]
  exact Nat.mul_lt_mul_of_pos_right hV (Nat.two_pow_pos _)

omit [Build] in
theorem remBits_cons (c : Codec) {p : Nat} (hp : p ≤ c.last) {b : UInt8} (hb : c.buf[p]? = some b) :
    remBits c p = msbBits 8 b.toNat ++ remBits c (p + 1) := by
  unfold remBits
  have hlt : p < c.buf.length := by
    obtain ⟨h, _⟩ := List.getElem?_eq_some_iff.mp hb
    exact h
  have hl : p < (c.buf.take (c.last + 1)).length := by rw [List.length_take]; omega
  rw [List.drop_eq_getElem_cons hl]
  have : (c.buf.take (c.last + 1))[p] = b := by
    rw [List.getElem_take]
    obtain ⟨_, h⟩ := List.getElem?_eq_some_iff.mp hb
    exact h
  rw [this]
  rfl

omit [Build] in
theorem remBits_length (c : Codec) (p : Nat) :
    (remBits c p).length = 8 * (min (c.last + 1) c.buf.length - p) := by
  have key : ∀ l : List UInt8, (byteBits l).length = 8 * l.length := by
    intro l
    induction l with
    | nil => rfl
    | cons a l ih =>
      show (msbBits 8 a.toNat ++ byteBits l).length = _
      rw [List.length_append, ih, msbBits_length, List.length_cons]
      omega
  unfold remBits
  rw [key, List.length_drop, List.length_take]

omit [Build] in
theorem byte_of_some {d : List UInt8} {p : Nat} {b : UInt8} (h : d[p]? = some b) :
    byte d p = .ok b.toNat := by
  unfold byte
  rw [idx_of_some h]
  rfl

omit [Build] in
theorem takeByte_ok {c : Codec} {p : Nat} (hlast : c.last < c.buf.length) (hp : p < c.buf.length)
    (hp2 : p ≤ c.last + 1) :
    ∃ b p', takeByte c.buf c.last p = .ok (b, p') ∧ b < 256 ∧ p' < c.buf.length ∧
      p' ≤ c.last + 1 ∧ (p ≤ c.last → p' ≤ c.last) ∧
      remBits c p <+: msbBits 8 b ++ remBits c p' := by
  obtain ⟨v, hv⟩ : ∃ v, c.buf[p]? = some v := ⟨c.buf[p], List.getElem?_eq_getElem hp⟩
  unfold takeByte
  rw [byte_of_some hv, Out.ok_bind]
  by_cases h : p ≤ c.last
  · rw [if_pos h]
    have hc := remBits_cons c h hv
    by_cases h2 : p < c.last
    · rw [if_pos h2]
      exact ⟨_, _, rfl, v.toNat_lt, by omega, by omega, fun _ => by omega,
        by rw [hc]; exact List.prefix_rfl⟩
    · rw [if_neg h2]
      refine ⟨_, _, rfl, v.toNat_lt, hp, hp2, fun _ => h, ?_⟩
      rw [hc]
      refine (List.prefix_append_right_inj _).mpr ?_
      rw [show remBits c (p + 1) = [] from List.eq_nil_of_length_eq_zero (by rw [remBits_length]; omega)]
      exact List.nil_prefix
  · rw [if_neg h]
    refine ⟨_, _, rfl, by omega, hp, hp2, fun h' => absurd h' h, ?_⟩
    rw [show remBits c p = [] from List.eq_nil_of_length_eq_zero (by rw [remBits_length]; omega)]
    exact List.nil_prefix

omit [Build] in
/-- Bits taken into the buffer. -/
theorem buf_or {n m V v : Nat} (hnm : n + m ≤ 32) (hV : V < 2 ^ n) (hv : v < 2 ^ m) :
    V * 2 ^ (32 - n) ||| (v <<< (32 - (n + m))) % 2 ^ 32 = (V * 2 ^ m + v) * 2 ^ (32 - (n + m)) := by
  have e1 : (2 : Nat) ^ 32 = 2 ^ n * 2 ^ m * 2 ^ (32 - (n + m)) := by
    rw [← Nat.pow_add, ← Nat.pow_add]; congr 1; omega
  have e2 : (2 : Nat) ^ (32 - n) = 2 ^ m * 2 ^ (32 - (n + m)) := by
    rw [← Nat.pow_add]; congr 1; omega
  have hlt : v * 2 ^ (32 - (n + m)) < 2 ^ (32 - n) := by
    rw [e2]
    exact Nat.mul_lt_mul_of_pos_right hv (Nat.two_pow_pos _)
  have hlt32 : v * 2 ^ (32 - (n + m)) < 2 ^ 32 :=
    Nat.lt_of_lt_of_le hlt (Nat.pow_le_pow_right (by omega) (by omega))
  rw [Nat.shiftLeft_eq, Nat.mod_eq_of_lt hlt32, ← Nat.shiftLeft_eq V,
    ← Nat.shiftLeft_add_eq_or_of_lt hlt, Nat.shiftLeft_eq, e2, Nat.add_mul, Nat.mul_assoc]

omit [Build] in
theorem append_lt {n m V v : Nat} (hV : V < 2 ^ n) (hv : v < 2 ^ m) :
    V * 2 ^ m + v < 2 ^ (n + m) := by
  have : (V + 1) * 2 ^ m ≤ 2 ^ n * 2 ^ m := Nat.mul_le_mul_right _ hV
  rw [Nat.pow_add]
  rw [Nat.add_mul, Nat.one_mul] at this
  omega

/-- The state after a refill: at least 16 bits. -/
theorem refill_ok {c : Codec} {bs : List Bool} (h : St c bs) :
    ∃ c', c.refill = .ok c' ∧ St c' bs ∧ 16 ≤ c'.bitCount ∧ c'.buf = c.buf ∧ c'.last = c.last ∧
      (c.next ≤ c.last → c'.next ≤ c.last) := by
  have hcnt := h.cnt
  have hlast := h.last
  obtain ⟨V, hV, e, hpre⟩ := h.bits
  unfold Codec.refill
  by_cases h24 : c.bitCount < 24
  · rw [if_pos h24]
    by_cases h16 : c.bitCount < 16
    · rw [if_pos h16]
      obtain ⟨b0, p0, e0, l0, r0, n0, k0, pre0⟩ := takeByte_ok hlast h.ready h.next
      obtain ⟨b1, p1, e1, l1, r1, n1, k1, pre1⟩ := takeByte_ok hlast r0 n0
      have hor : b0 <<< 8 % 2 ^ 32 ||| b1 = b0 * 2 ^ 8 + b1 := by
        rw [Nat.mod_eq_of_lt (by rw [Nat.shiftLeft_eq]; omega),
          ← Nat.shiftLeft_add_eq_or_of_lt (by omega), Nat.shiftLeft_eq]
      have hw : b0 * 2 ^ 8 + b1 < 2 ^ 16 := by omega
      rw [e0, Out.ok_bind]
      simp only
      rw [e1, Out.ok_bind]
      simp only
      rw [shlU_ok (by omega), Out.ok_bind, shlU_ok (by omega), Out.ok_bind, hor]
      refine ⟨_, rfl, ⟨by simp only; omega, n1, r1, hlast, ?_⟩, by simp only; omega, rfl, rfl,
        fun hh => k1 (k0 hh)⟩
      refine ⟨V * 2 ^ 16 + (b0 * 2 ^ 8 + b1), append_lt hV hw, ?_, ?_⟩
      · simp only
        rw [e, buf_or (by omega) hV hw]
      · refine List.IsPrefix.trans hpre ?_
        show _ <+: msbBits (c.bitCount + 16) (V * 2 ^ 16 + (b0 * 2 ^ 8 + b1)) ++ _
        have hb := msbBits_append 8 8 b0 b1 (by omega)
        rw [msbBits_append _ 16 _ _ hw, show (16 : Nat) = 8 + 8 by rfl, hb, List.append_assoc,
          List.append_assoc]
        refine (List.prefix_append_right_inj _).mpr ?_
        refine List.IsPrefix.trans pre0 ?_
        exact (List.prefix_append_right_inj _).mpr pre1
    · rw [if_neg h16]
      obtain ⟨b0, p0, e0, l0, r0, n0, k0, pre0⟩ := takeByte_ok hlast h.ready h.next
      have hw : b0 < 2 ^ 8 := by omega
      rw [e0, Out.ok_bind]
      simp only
      rw [shlU_ok (by omega), Out.ok_bind]
      refine ⟨_, rfl, ⟨by simp only; omega, n0, r0, hlast, ?_⟩, by simp only; omega, rfl, rfl, k0⟩
      refine ⟨V * 2 ^ 8 + b0, append_lt hV hw, ?_, ?_⟩
      · simp only
        rw [e, buf_or (by omega) hV hw]
      · refine List.IsPrefix.trans hpre ?_
        show _ <+: msbBits (c.bitCount + 8) (V * 2 ^ 8 + b0) ++ _
        rw [msbBits_append _ 8 _ _ hw, List.append_assoc]
        exact (List.prefix_append_right_inj _).mpr pre0
  · rw [if_neg h24]
    exact ⟨_, rfl, h, by omega, rfl, rfl, id⟩

omit [Build] in
/-- Taking the first `b.length` bits out of the buffer. -/
theorem st_take {c : Codec} {b bs : List Bool} (h : St c (b ++ bs)) (hb : b.length ≤ c.bitCount) :
    c.bitBuf >>> (32 - b.length) = ofBits b ∧
    St { c with bitBuf := (c.bitBuf <<< b.length) % 2 ^ 32, bitCount := c.bitCount - b.length } bs := by
  obtain ⟨V, hV, e, hpre⟩ := h.bits
  have hcnt := h.cnt
  generalize hl : b.length = l at *
  generalize hn : c.bitCount = n at *
  have hp := Nat.two_pow_pos (n - l)
  have hV' : V = V / 2 ^ (n - l) * 2 ^ (n - l) + V % 2 ^ (n - l) := by
    rw [Nat.mul_comm]; exact (Nat.div_add_mod V (2 ^ (n - l))).symm
  have hr : V % 2 ^ (n - l) < 2 ^ (n - l) := Nat.mod_lt _ hp
  have ha : V / 2 ^ (n - l) < 2 ^ l := by
    rw [Nat.div_lt_iff_lt_mul hp, ← Nat.pow_add, show l + (n - l) = n by omega]; exact hV
  generalize V / 2 ^ (n - l) = a at *
  generalize V % 2 ^ (n - l) = r at *
  subst hV'
  have hsplit := msbBits_append l (n - l) a r hr
  rw [show l + (n - l) = n by omega] at hsplit
  rw [hsplit, List.append_assoc] at hpre
  obtain ⟨h1, h2⟩ := prefix_split hpre (by simp [hl])
  have e32 : (2 : Nat) ^ (32 - l) = 2 ^ (n - l) * 2 ^ (32 - n) := by
    rw [← Nat.pow_add]; congr 1; omega
  have hrlt : r * 2 ^ (32 - n) < 2 ^ (32 - l) := by
    rw [e32]; exact Nat.mul_lt_mul_of_pos_right hr (Nat.two_pow_pos _)
  have hbuf : c.bitBuf = a * 2 ^ (32 - l) + r * 2 ^ (32 - n) := by
    rw [e, Nat.add_mul, Nat.mul_assoc, ← e32]
  constructor
  · rw [hbuf, Nat.shiftRight_eq_div_pow, Nat.add_comm, Nat.add_mul_div_right _ _ (Nat.two_pow_pos _),
      Nat.div_eq_of_lt hrlt, Nat.zero_add, h1, ofBits_msbBits ha]
  · refine ⟨by simp only; omega, h.next, h.ready, h.last, r, hr, ?_, h2⟩
    simp only
    have e1 : (2 : Nat) ^ (32 - l) * 2 ^ l = 2 ^ 32 := by rw [← Nat.pow_add]; congr 1; omega
    have e2 : (2 : Nat) ^ (32 - n) * 2 ^ l = 2 ^ (32 - (n - l)) := by
      rw [← Nat.pow_add]; congr 1; omega
    have e3 : (2 : Nat) ^ 32 = 2 ^ (n - l) * 2 ^ (32 - (n - l)) := by
      rw [← Nat.pow_add]; congr 1; omega
    rw [hbuf, Nat.shiftLeft_eq, Nat.add_mul, Nat.mul_assoc, e1, Nat.mul_assoc, e2, Nat.add_comm,
      Nat.add_mul_mod_self_right, Nat.mod_eq_of_lt]
    rw [e3]
    exact Nat.mul_lt_mul_of_pos_right hr (Nat.two_pow_pos _)

omit [Build] in
theorem hasCode_starts {lens : List Nat} {s x : Nat} (h : HasCode lens s)
    (hx : x / 2 ^ (16 - lenOf lens s) = codeValue lens s) : Starts lens s x := by
  have hp := Nat.two_pow_pos (16 - lenOf lens s)
  refine ⟨h.1, ?_, ?_⟩
  · rw [← hx]; exact Nat.div_mul_le_self _ _
  · rw [← hx, Nat.mul_comm]; exact Nat.lt_mul_div_succ x hp

/-- **One symbol.** If the stream continues with the code of `s`, `decode` returns `s` and takes
exactly the code. -/
theorem decode_ok {lens : List Nat} {m : DataModel} (hm : TablesOk lens m) {c : Codec} {s : Nat}
    {bs : List Bool} (hs : HasCode lens s) (h : St c (codeBits lens s ++ bs)) :
    ∃ c', c.decode m = .ok (s, c') ∧ St c' bs ∧ c'.buf = c.buf ∧ c'.last = c.last ∧
      (c.next ≤ c.last → c'.next ≤ c.last) := by
  obtain ⟨c1, e1, h1, hc1, hb1, hl1, hn1⟩ := refill_ok h
  have h16 := lenOf_le hm.lensOk s
  have hcl : (codeBits lens s).length = lenOf lens s := by simp [codeBits]
  obtain ⟨t1, t2⟩ := st_take h1 (by omega)
  rw [hcl] at t1 t2
  have hcode : ofBits (codeBits lens s) = codeValue lens s := ofBits_msbBits hs.2
  rw [hcode, shift_top h16] at t1
  have hst := hasCode_starts hs t1
  unfold Codec.decode
  rw [e1, Res.lift_ok, Res.ok_bind, lookup_starts hm (st_buf_lt h1) hst, Res.ok_bind]
  simp only
  rw [shlU_ok (by omega), Res.lift_ok, Res.ok_bind, subU_ok (by omega), Res.lift_ok, Res.ok_bind]
  exact ⟨_, rfl, t2, hb1, hl1, hn1⟩

/-! ## Plain bits -/

theorem fill_ok {c : Codec} {bs : List Bool} {n : Nat} (hn : n ≤ 16) (h : St c bs)
    (hlen : n ≤ bs.length) (hlast : c.last + 1 < c.buf.length) {fuel : Nat}
    (hfuel : 0 < fuel ∧ n + 8 ≤ c.bitCount + 8 * fuel) :
    ∃ c', c.fill n fuel = .ok c' ∧ St c' bs ∧ n ≤ c'.bitCount ∧ c'.buf = c.buf ∧
      c'.last = c.last := by
  induction fuel generalizing c with
  | zero => omega
  | succ fuel ih =>
    unfold Codec.fill
    by_cases hlt : c.bitCount < n
    · obtain ⟨V, hV, e, hpre⟩ := h.bits
      have hl := hpre.length_le
      rw [List.length_append, msbBits_length, remBits_length] at hl
      have hnext : c.next ≤ c.last := by omega
      obtain ⟨v, hv⟩ : ∃ v, c.buf[c.next]? = some v := ⟨c.buf[c.next]'h.ready, List.getElem?_eq_getElem _⟩
      have hw : v.toNat < 2 ^ 8 := v.toNat_lt
      rw [if_pos hlt, byte_of_some hv, Res.lift_ok, Res.ok_bind]
      simp only
      rw [if_neg (by omega), shlU_ok (by omega), Res.lift_ok, Res.ok_bind]
      have hst : St { c with
          next := c.next + 1, bitCount := c.bitCount + 8,
          bitBuf := c.bitBuf ||| v.toNat <<< (32 - (c.bitCount + 8)) % 2 ^ 32 } bs := by
        refine ⟨by simp only; omega, by simp only; omega, by simp only; omega, h.last, ?_⟩
        refine ⟨V * 2 ^ 8 + v.toNat, append_lt hV hw, ?_, ?_⟩
        · simp only
          rw [e, buf_or (by omega) hV hw]
        · refine List.IsPrefix.trans hpre ?_
          show _ <+: msbBits (c.bitCount + 8) (V * 2 ^ 8 + v.toNat) ++ remBits c (c.next + 1)
          rw [msbBits_append _ 8 _ _ hw, List.append_assoc, remBits_cons c hnext hv]
          exact List.prefix_rfl
      obtain ⟨c', e', h', k', b', l'⟩ := ih hst hlast (by simp only; omega)
      exact ⟨c', e', h', k', b', l'⟩
    · rw [if_neg hlt]
      exact ⟨_, rfl, h, by omega, rfl, rfl⟩

/-- **Plain bits.** -/
theorem decodeBits_ok {c : Codec} {b bs : List Bool} (hb : b.length ≤ 16) (h : St c (b ++ bs))
    (hlast : c.last + 1 < c.buf.length) :
    ∃ c', c.decodeBits b.length = .ok (ofBits b, c') ∧ St c' bs ∧ c'.buf = c.buf ∧
      c'.last = c.last := by
  unfold Codec.decodeBits
  by_cases h0 : b.length = 0
  · rw [if_pos h0]
    have hnil := List.eq_nil_of_length_eq_zero h0
    subst hnil
    exact ⟨c, rfl, h, rfl, rfl⟩
  · rw [if_neg h0, if_neg (by omega)]
    unfold Codec.getBits
    obtain ⟨c1, e1, h1, k1, b1, l1⟩ := fill_ok hb h (by simp) hlast (fuel := 6) (by omega)
    obtain ⟨t1, t2⟩ := st_take h1 k1
    rw [if_neg (by omega), e1, Res.ok_bind, subU_ok (by omega), Res.lift_ok, Res.ok_bind,
      shrU_ok (by omega), Res.lift_ok, Res.ok_bind, shlU_ok (by omega), Res.lift_ok, Res.ok_bind,
      subU_ok k1, Res.lift_ok, Res.ok_bind, t1]
    exact ⟨_, rfl, t2, b1, l1⟩

/-- The start of a stream. -/
theorem start_ok {buf : List UInt8} {size : Nat} (h0 : 0 < size) (h : size ≤ buf.length) :
    ∃ c, Codec.start buf size = .ok c ∧ St c (byteBits (buf.take size)) ∧ c.buf = buf ∧
      c.last = size - 1 ∧ c.next = 0 := by
  unfold Codec.start
  rw [if_neg (by omega), idx_ok (show size - 1 < buf.length by omega), Res.lift_ok, Res.ok_bind]
  refine ⟨_, rfl, ⟨by simp, by simp, by simp only; omega, by simp only; omega, 0, by simp, by simp, ?_⟩,
    rfl, rfl, rfl⟩
  show _ <+: [] ++ _
  unfold remBits
  simp only [List.nil_append, List.drop_zero]
  rw [show size - 1 + 1 = size by omega]
  exact List.prefix_rfl

end Verif.Proofs.Crn
