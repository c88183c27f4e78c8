import Verif.Proofs.StoreEtc
import Verif.Proofs.Bc6Block

/-! # Proofs: flat BC6H blocks -/

namespace Verif.Proofs.Store.B6

open Verif Verif.Spec Verif.Spec.Bc6 Verif.Proofs.Store

/-- For every level twice the first endpoint, plus 1 if the second one is larger by 1. -/
def choiceU : List Nat :=
  [0, 1851, 2115, 2247, 2379, 2445, 2512, 2578, 2643, 2676, 2710, 2743, 2776, 2809, 2842, 2875, 2908, 2924, 2941, 2957,
   2974, 2990, 3007, 3023, 3040, 3057, 3073, 3090, 3107, 3123, 3140, 3156, 3172, 3180, 3188, 3197, 3205, 3213, 3221, 3230,
   3238, 3246, 3255, 3263, 3271, 3279, 3288, 3296, 3305, 3313, 3321, 3329, 3338, 3346, 3354, 3362, 3371, 3379, 3387, 3396,
   3404, 3412, 3420, 3429, 3436, 3440, 3444, 3449, 3453, 3457, 3461, 3465, 3469, 3473, 3477, 3482, 3486, 3490, 3494, 3498,
   3502, 3507, 3511, 3515, 3519, 3523, 3527, 3531, 3535, 3540, 3544, 3548, 3552, 3556, 3560, 3564, 3569, 3573, 3577, 3581,
   3585, 3589, 3594, 3598, 3602, 3606, 3610, 3614, 3618, 3622, 3627, 3631, 3635, 3639, 3643, 3647, 3652, 3656, 3660, 3664,
   3668, 3672, 3676, 3681, 3685, 3689, 3693, 3697, 3700, 3702, 3705, 3707, 3709, 3711, 3713, 3715, 3717, 3719, 3721, 3723,
   3725, 3727, 3729, 3731, 3733, 3735, 3738, 3740, 3742, 3744, 3746, 3748, 3750, 3752, 3754, 3756, 3758, 3760, 3762, 3764,
   3767, 3769, 3771, 3773, 3775, 3777, 3779, 3781, 3783, 3785, 3787, 3789, 3791, 3794, 3796, 3798, 3800, 3802, 3804, 3806,
   3808, 3810, 3812, 3814, 3816, 3818, 3820, 3822, 3825, 3827, 3829, 3831, 3833, 3835, 3837, 3839, 3841, 3843, 3845, 3847,
   3850, 3852, 3854, 3856, 3858, 3860, 3862, 3864, 3866, 3868, 3870, 3872, 3874, 3876, 3878, 3881, 3883, 3885, 3887, 3889,
   3891, 3893, 3895, 3897, 3899, 3901, 3903, 3906, 3908, 3910, 3912, 3914, 3916, 3918, 3920, 3922, 3924, 3926, 3928, 3930,
   3932, 3934, 3937, 3939, 3941, 3943, 3945, 3947, 3949, 3951, 3953, 3955, 3957, 3959, 3961, 3963]
def choiceS : List Nat :=
  [0, 925, 1057, 1123, 1189, 1222, 1256, 1289, 1321, 1338, 1355, 1371, 1388, 1404, 1421, 1437, 1454, 1462, 1470, 1478,
   1487, 1495, 1503, 1511, 1520, 1528, 1536, 1545, 1553, 1561, 1570, 1578, 1586, 1590, 1594, 1598, 1602, 1606, 1610, 1615,
   1619, 1623, 1627, 1631, 1635, 1639, 1644, 1648, 1652, 1656, 1660, 1664, 1669, 1673, 1677, 1681, 1685, 1689, 1693, 1698,
   1702, 1706, 1710, 1714, 1718, 1720, 1722, 1724, 1726, 1728, 1730, 1732, 1734, 1736, 1738, 1741, 1743, 1745, 1747, 1749,
   1751, 1753, 1755, 1757, 1759, 1761, 1763, 1765, 1767, 1770, 1772, 1774, 1776, 1778, 1780, 1782, 1784, 1786, 1788, 1790,
   1792, 1794, 1797, 1799, 1801, 1803, 1805, 1807, 1809, 1811, 1813, 1815, 1817, 1819, 1821, 1823, 1826, 1828, 1830, 1832,
   1834, 1836, 1838, 1840, 1842, 1844, 1846, 1848, 1850, 1851, 1852, 1853, 1854, 1855, 1856, 1857, 1858, 1859, 1860, 1861,
   1862, 1863, 1864, 1865, 1866, 1867, 1869, 1870, 1871, 1872, 1873, 1874, 1875, 1876, 1877, 1878, 1879, 1880, 1881, 1882,
   1883, 1884, 1885, 1886, 1887, 1888, 1889, 1890, 1891, 1892, 1893, 1894, 1895, 1897, 1898, 1899, 1900, 1901, 1902, 1903,
   1904, 1905, 1906, 1907, 1908, 1909, 1910, 1911, 1912, 1913, 1914, 1915, 1916, 1917, 1918, 1919, 1920, 1921, 1922, 1923,
   1925, 1926, 1927, 1928, 1929, 1930, 1931, 1932, 1933, 1934, 1935, 1936, 1937, 1938, 1939, 1940, 1941, 1942, 1943, 1944,
   1945, 1946, 1947, 1948, 1949, 1950, 1951, 1953, 1954, 1955, 1956, 1957, 1958, 1959, 1960, 1961, 1962, 1963, 1964, 1965,
   1966, 1967, 1968, 1969, 1970, 1971, 1972, 1973, 1974, 1975, 1976, 1977, 1978, 1979, 1980, 1981]
def choice (signed : Bool) (v : Nat) : Nat := (if signed then choiceS else choiceU).getD v 0

/-- The level of texels halfway between two endpoints. -/
def levelOf (signed : Bool) (e f : Nat) : Nat :=
  halfToByte (finishAsIs signed (Bptc.interpolate (unquantiseAsIs signed 12 e) (unquantiseAsIs signed 12 f) 30))

theorem choice_table : ∀ signed : Bool, ∀ v : Fin 256,
    choice signed v / 2 < 2047 ∧
      levelOf signed (choice signed v / 2) (choice signed v / 2 + choice signed v % 2) = v := by
  decide +kernel

/-! ## Blocks -/

/-- A block of mode 11 with the endpoints `e ch` and `e ch + f ch`. -/
def widths : List Nat := [5, 10, 10, 10, 8, 1, 1, 8, 1, 1, 8, 1, 1, 3, 4, 4, 4, 4, 4, 4, 4, 4, 4, 4, 4, 4, 4, 4, 4]
def fields (e f : Nat → Nat) : List Nat :=
  [11, e 0 % 1024, e 1 % 1024, e 2 % 1024, f 0, e 0 / 2048, e 0 / 1024, f 1, e 1 / 2048, e 1 / 1024, f 2,
    e 2 / 2048, e 2 / 1024, 7, 7, 7, 7, 7, 7, 7, 7, 7, 7, 7, 7, 7, 7, 7, 7]
def blk (e f : Nat → Nat) : List UInt8 := bytesLe 16 (pack widths (fields e f))

theorem blk_length (e f : Nat → Nat) : (blk e f).length = 16 := bytesLe_length _ _

section
variable {e f : Nat → Nat}

theorem blk_field (pos n i : Nat) (hp : (widths.take i).sum = pos) (hn : ((widths.drop i).take 1).sum = n) :
    field (blk e f) pos n = pack ((widths.drop i).take 1) (((fields e f).drop i).take 1) := by
  unfold field blk
  rw [leNat_bytesLe _ _ (pack_lt widths _)]
  exact pack_mid _ _ (by simp [widths, fields]) i 1 hp hn

theorem blk_mode : modeOf (blk e f) = 11 := by
  have h5 : field (blk e f) 0 5 = 11 := by
    rw [blk_field 0 5 0 (by decide) (by decide)]; rfl
  have h2 : field (blk e f) 0 2 = field (blk e f) 0 5 % 4 := by unfold field; omega
  unfold modeOf
  rw [h2, h5]; rfl

/-- The endpoints of a block of mode 11. -/
theorem stored_11 (B : List UInt8) :
    stored B 11 0 0 = field B 5 10 + field B 43 1 * 2048 + field B 44 1 * 1024 ∧
    stored B 11 1 0 = field B 15 10 + field B 53 1 * 2048 + field B 54 1 * 1024 ∧
    stored B 11 2 0 = field B 25 10 + field B 63 1 * 2048 + field B 64 1 * 1024 ∧
    stored B 11 0 1 = field B 35 8 ∧ stored B 11 1 1 = field B 45 8 ∧ stored B 11 2 1 = field B 55 8 := by
  have hl : layout 11 = [r 0 9 0, g 0 9 0, b 0 9 0, r 1 7 0, r 0 11 11, r 0 10 10, g 1 7 0, g 0 11 11, g 0 10 10,
      b 1 7 0, b 0 11 11, b 0 10 10] := rfl
  have hm : modeBits 11 = 5 := rfl
  unfold stored
  rw [hl, hm]
  refine ⟨?_, ?_, ?_, ?_, ?_, ?_⟩ <;> simp [collect, Fld.width, r, g, b] <;> try omega

theorem blk_stored (he : ∀ c, e c < 2048) (hf : ∀ c, f c < 2) {c : Nat} (hc : c < 3) :
    stored (blk e f) 11 c 0 = e c ∧ stored (blk e f) 11 c 1 = f c := by
  have a0 := he 0; have a1 := he 1; have a2 := he 2
  have b0 := hf 0; have b1 := hf 1; have b2 := hf 2
  have w0 := blk_field (e := e) (f := f) 5 10 1 (by decide) (by decide)
  have w1 := blk_field (e := e) (f := f) 15 10 2 (by decide) (by decide)
  have w2 := blk_field (e := e) (f := f) 25 10 3 (by decide) (by decide)
  have w3 := blk_field (e := e) (f := f) 35 8 4 (by decide) (by decide)
  have w4 := blk_field (e := e) (f := f) 43 1 5 (by decide) (by decide)
  have w5 := blk_field (e := e) (f := f) 44 1 6 (by decide) (by decide)
  have w6 := blk_field (e := e) (f := f) 45 8 7 (by decide) (by decide)
  have w7 := blk_field (e := e) (f := f) 53 1 8 (by decide) (by decide)
  have w8 := blk_field (e := e) (f := f) 54 1 9 (by decide) (by decide)
  have w9 := blk_field (e := e) (f := f) 55 8 10 (by decide) (by decide)
  have w10 := blk_field (e := e) (f := f) 63 1 11 (by decide) (by decide)
  have w11 := blk_field (e := e) (f := f) 64 1 12 (by decide) (by decide)
  simp only [fields, widths, List.drop, List.take, pack, Nat.mul_zero, Nat.add_zero] at w0 w1 w2 w3 w4 w5 w6 w7 w8 w9 w10 w11
  obtain ⟨u0, u1, u2, v0, v1, v2⟩ := stored_11 (blk e f)
  rcases (by omega : c = 0 ∨ c = 1 ∨ c = 2) with rfl | rfl | rfl
  · rw [u0, v0, w0, w3, w4, w5]; omega
  · rw [u1, v1, w1, w6, w7, w8]; omega
  · rw [u2, v2, w2, w9, w10, w11]; omega

/-- The weights. -/
theorem blk_index {i : Nat} (hi : i < 16) : index (blk e f) 11 ⟨true, 1, 12, 8, 8, 8⟩ i = 7 := by
  have hp : partition (blk e f) 11 ⟨true, 1, 12, 8, 8, 8⟩ = 0 := rfl
  have key : ∀ j : Fin 16, (widths.take (13 + j)).sum = indexPos 11 ⟨true, 1, 12, 8, 8, 8⟩ +
      (j * Mode.ib ⟨true, 1, 12, 8, 8, 8⟩ - Bptc.anchorsBefore 1 0 j) ∧ ((widths.drop (13 + j)).take 1).sum =
      Mode.ib ⟨true, 1, 12, 8, 8, 8⟩ - (Bptc.isAnchor 1 0 j).toNat := by decide
  unfold index
  simp only [hp]
  rw [blk_field _ _ (13 + i) (key ⟨i, hi⟩).1 (key ⟨i, hi⟩).2]
  have h7 : ∀ j : Fin 16, ((fields e f).drop (13 + j)).take 1 = [7] := by
    intro j
    rcases j with ⟨j, hj⟩
    match j, hj with
    | 0, _ | 1, _ | 2, _ | 3, _ | 4, _ | 5, _ | 6, _ | 7, _ | 8, _ | 9, _ | 10, _ | 11, _ | 12, _ | 13, _
    | 14, _ | 15, _ => rfl
    | n + 16, h => omega
  rw [h7 ⟨i, hi⟩]
  have : ∀ j : Fin 16, pack ((widths.drop (13 + j)).take 1) [7] = 7 := by decide
  exact this ⟨i, hi⟩

theorem blk_quantised (signed : Bool) (he : ∀ c, e c < 2047) (hf : ∀ c, f c < 2) {c : Nat} (hc : c < 3) :
    quantised signed (blk e f) 11 ⟨true, 1, 12, 8, 8, 8⟩ c 0 = e c ∧
    quantised signed (blk e f) 11 ⟨true, 1, 12, 8, 8, 8⟩ c 1 = ((e c + f c : Nat) : Int) := by
  obtain ⟨s0, s1⟩ := blk_stored (e := e) (f := f) (fun c => by have := he c; omega) hf hc
  have h1 := he c; have h2 := hf c
  have sx : signExt 12 (e c) = e c := by
    unfold signExt
    rw [Nat.mod_eq_of_lt (by omega), if_pos (by omega)]
  have sy : signExt 12 (e c + f c) = ((e c + f c : Nat) : Int) := by
    unfold signExt
    rw [Nat.mod_eq_of_lt (by omega), if_pos (by omega)]
  have sd : signExt 8 (f c) = f c := by
    unfold signExt
    rw [Nat.mod_eq_of_lt (by omega), if_pos (by omega)]
  have hd : Mode.delta ⟨true, 1, 12, 8, 8, 8⟩ c = 8 := by unfold Mode.delta; split <;> (try split) <;> rfl
  have hsum : (((e c : Nat) : Int) + ((f c : Nat) : Int)) % 2 ^ 12 = ((e c + f c : Nat) : Int) := by omega
  constructor
  · unfold quantised
    simp only [s0, sx]
    simp
  · unfold quantised
    simp only [s0, s1, hd, sd]
    rw [if_neg (by decide), if_pos trivial]
    simp only [hsum, Int.toNat_natCast, sy]
    simp

/-- The only mode of these blocks. -/
def m11 : Mode := ⟨true, 1, 12, 8, 8, 8⟩

theorem blk_weight {i : Nat} (hi : i < 16) : weight (blk e f) 11 m11 i = 30 := by
  have h : index (blk e f) 11 m11 i = 7 := blk_index hi
  unfold weight
  rw [h]; rfl

theorem blk_subset (i : Nat) : Bptc.subset m11.ns (partition (blk e f) 11 m11) i = 0 := by
  unfold Bptc.subset
  rw [if_neg (by decide), if_neg (by decide)]

theorem blk_channel (signed : Bool) (he : ∀ c, e c < 2047) (hf : ∀ c, f c < 2) {i c : Nat} (hi : i < 16) (hc : c < 3) :
    halfToByte (channelAsIs signed (blk e f) 11 m11 c i) = levelOf signed (e c) (e c + f c) := by
  obtain ⟨q0, q1⟩ := blk_quantised (e := e) (f := f) signed he hf hc
  have q0' : quantised signed (blk e f) 11 m11 c 0 = e c := q0
  have q1' : quantised signed (blk e f) 11 m11 c 1 = ((e c + f c : Nat) : Int) := q1
  have eb : m11.eb = 12 := rfl
  unfold channelAsIs levelOf
  simp only [blk_subset, blk_weight hi, Nat.mul_zero, Nat.zero_add, q0', q1', eb]

theorem texel_of_mode (signed : Bool) (B : List UInt8) (n : Nat) (M : Mode) (i : Nat) (hn : modeOf B = n)
    (hM : mode n = some M) (v : Nat → Nat)
    (hv : ∀ ch, ch < 3 → halfToByte (channelAsIs signed B n M ch i) = v ch) :
    texelAsIs signed B i = px (v 0) (v 1) (v 2) 255 := by
  subst hn
  rw [← hv 0 (by decide), ← hv 1 (by decide), ← hv 2 (by decide)]
  unfold texelAsIs
  rw [hM]

theorem mode_11 : mode 11 = some m11 := rfl

theorem blk_texel (signed : Bool) (he : ∀ c, e c < 2047) (hf : ∀ c, f c < 2) {i : Nat} (hi : i < 16)
    (v : Nat → Nat) (hv : ∀ c, levelOf signed (e c) (e c + f c) = v c) :
    texelAsIs signed (blk e f) i = px (v 0) (v 1) (v 2) 255 :=
  texel_of_mode signed (blk e f) 11 m11 i blk_mode mode_11 v
    (fun ch hch => (blk_channel signed he hf hi hch).trans (hv ch))

end

/-- A flat block of any colour. -/
def flat (signed : Bool) (c : Nat → Nat) : List UInt8 :=
  blk (fun ch => choice signed (c ch % 256) / 2) (fun ch => choice signed (c ch % 256) % 2)

theorem flat_texel (signed : Bool) {c : Nat → Nat} (hc : ∀ ch, c ch < 256) {i : Nat} (hi : i < 16) :
    texelAsIs signed (flat signed c) i = px (c 0) (c 1) (c 2) 255 := by
  have t := fun ch => choice_table signed ⟨c ch % 256, Nat.mod_lt _ (by decide)⟩
  exact blk_texel signed (fun ch => (t ch).1) (fun ch => Nat.mod_lt _ (by decide)) hi c
    (fun ch => (t ch).2.trans (Nat.mod_eq_of_lt (hc ch)))

theorem flat_length (signed : Bool) (c : Nat → Nat) : (flat signed c).length = 16 := blk_length _ _

theorem flat_mode (signed : Bool) (c : Nat → Nat) : modeOf (flat signed c) ≠ 15 := by
  have h : modeOf (flat signed c) = 11 := blk_mode
  rw [h]; decide

end Verif.Proofs.Store.B6
