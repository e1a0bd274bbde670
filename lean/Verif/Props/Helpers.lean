import Mathlib.Tactic.NormNum
import Mathlib.Data.Rat.Cast.Order
import Verif.Proofs.Helpers

/-!
# Helper functions (C08, C44, C45, C46)
-/

namespace Pyogp
open Spec

/-! ## C44 -/

/-- **C44.** For every integer, `int_to_bytes` yields four bytes whose little-endian value is the integer modulo `2^32`. -/
theorem C44_int_to_bytes (v : PyVersion) (n : Int) :
    ∃ b : Bytes, intToBytes v n = .ok b ∧ b.length = 4 ∧ leValue4 b = n % 4294967296 :=
  ⟨_, intToBytes_eq v n, rfl, leValue4_intToBytes n⟩

/-- Examples: a positive, a negative and a large number. -/
example : intToBytes .v26 258 = .ok [2, 1, 0, 0] := by decide +kernel
example : intToBytes .v27 (-2) = .ok [254, 255, 255, 255] := by decide +kernel
example : intToBytes .v27 (4294967296 + 5) = .ok [5, 0, 0, 0] := by decide +kernel

/-- **C44, injectivity.** Two integers give the same bytes exactly if they agree modulo `2^32`. -/
theorem C44_int_to_bytes_eq_iff (v : PyVersion) (m n : Int) : intToBytes v m = intToBytes v n ↔ m % 4294967296 = n % 4294967296 := by
  obtain ⟨a, ha, _, ha2⟩ := C44_int_to_bytes v m
  obtain ⟨b, hb, _, hb2⟩ := C44_int_to_bytes v n
  constructor
  · intro h
    rw [ha, hb] at h
    cases h
    rw [← ha2, hb2]
  · intro h
    rw [intToBytes_eq, intToBytes_eq]
    have e : ∀ k : Int, k % 256 = (k % 4294967296) % 256 ∧ k / 256 % 256 = (k % 4294967296) / 256 % 256 ∧
        k / 65536 % 256 = (k % 4294967296) / 65536 % 256 ∧ k / 16777216 % 256 = (k % 4294967296) / 16777216 % 256 := by
      intro k
      refine ⟨?_, ?_, ?_, ?_⟩ <;> omega
    rw [(e m).1, (e m).2.1, (e m).2.2.1, (e m).2.2.2, (e n).1, (e n).2.1, (e n).2.2.1, (e n).2.2.2, h]

/-! ## C45 -/

/-- **C45, format.** Two upper-case hexadecimal digits per byte, separated by single spaces. -/
theorem C45_format (data : Bytes) : bytesToHex data = [' '].intercalate (data.map twoDigits) := bytesToHex_intercalate data

/-- **C45, reading back.** `hex_to_ascii` of the dump without its spaces is the data. -/
theorem C45_reads_back (data : Bytes) : hexToAscii ((bytesToHex data).filter (· ≠ ' ')) = .ok data := by
  unfold hexToAscii
  rw [bytesToHex_filter, unhexlify_digits]

/-- **C45, injectivity.** -/
theorem C45_injective {a b : Bytes} (h : bytesToHex a = bytesToHex b) : a = b := by
  have h1 := C45_reads_back a
  rw [h, C45_reads_back b] at h1
  cases h1
  rfl

example : bytesToHex [0, 255, 16, 10] = "00 FF 10 0A".toList := by decide +kernel
example : hexToAscii "00FF100A".toList = .ok [0, 255, 16, 10] := by decide +kernel
example : hexToAscii "00ff1".toList = .error .dataParsing := by decide +kernel

/-- **C45, the limit.** The dump of two or more bytes itself is refused by `hex_to_ascii`: the spaces have to be removed. -/
theorem C45_spaces_refused (a b : UInt8) (l : Bytes) : hexToAscii (bytesToHex (a :: b :: l)) = .error .dataParsing := by
  have h1 : ∃ d r, bytesToHex (a :: b :: l) = twoDigits a ++ ' ' :: d :: r := by
    rw [C45_format]
    cases l with
    | nil => exact ⟨_, _, rfl⟩
    | cons c l => exact ⟨_, _, rfl⟩
  obtain ⟨d, r, h⟩ := h1
  have ha := a.toNat_lt
  have e1 := (hexDigit_facts (a.toNat / 16) (by omega)).1
  have e2 := (hexDigit_facts (a.toNat % 16) (by omega)).1
  have e3 : hexNibble ' ' = none := by decide
  rw [h]
  simp only [hexToAscii, twoDigits, List.cons_append, List.nil_append, unhexlify, e1, e2, e3, Option.bind_eq_bind, Option.bind_some,
    Option.bind_none]

theorem hexNibble_spellings (c : Char) (n : Nat) : hexNibble c = some n ↔ n < 16 ∧ c ∈ spellings n := by
  have hch : ∀ k, c.toNat = k → c = Char.ofNat k := by
    intro k hk
    rw [← hk]
    exact (Char.ofNat_toNat c).symm
  constructor
  · intro h
    unfold hexNibble at h
    have hle : ∀ a b : Char, a ≤ b → a.toNat ≤ b.toNat := fun a b h => h
    split at h
    · rename_i hr
      have h1 : 48 ≤ c.toNat := hle _ _ hr.1
      have h2 : c.toNat ≤ 57 := hle _ _ hr.2
      cases h
      obtain ⟨k, hk, hk'⟩ : ∃ k, k < 10 ∧ c.toNat = 48 + k := ⟨c.toNat - 48, by omega, by omega⟩
      rw [hk', Nat.add_sub_cancel_left, hch _ hk']
      exact ⟨by omega, (by decide : ∀ k < 10, Char.ofNat (48 + k) ∈ spellings k) k hk⟩
    · split at h
      · rename_i hr
        have h1 : 65 ≤ c.toNat := hle _ _ hr.1
        have h2 : c.toNat ≤ 70 := hle _ _ hr.2
        cases h
        obtain ⟨k, hk, hk'⟩ : ∃ k, k < 6 ∧ c.toNat = 65 + k := ⟨c.toNat - 65, by omega, by omega⟩
        rw [hk', show 65 + k - 55 = 10 + k by omega, hch _ hk']
        exact ⟨by omega, (by decide : ∀ k < 6, Char.ofNat (65 + k) ∈ spellings (10 + k)) k hk⟩
      · split at h
        · rename_i hr
          have h1 : 97 ≤ c.toNat := hle _ _ hr.1
          have h2 : c.toNat ≤ 102 := hle _ _ hr.2
          cases h
          obtain ⟨k, hk, hk'⟩ : ∃ k, k < 6 ∧ c.toNat = 97 + k := ⟨c.toNat - 97, by omega, by omega⟩
          rw [hk', show 97 + k - 87 = 10 + k by omega, hch _ hk']
          exact ⟨by omega, (by decide : ∀ k < 6, Char.ofNat (97 + k) ∈ spellings (10 + k)) k hk⟩
        · cases h
  · rintro ⟨hn, hc⟩
    exact (by decide : ∀ n < 16, ∀ c ∈ spellings n, hexNibble c = some n) n hn c hc

theorem unhexlify_spells : ∀ (l : List Char) (b : Bytes), unhexlify l = some b ↔ Spells l b
  | [], b => by
    constructor
    · intro h; cases h; exact .nil
    · intro h; cases h; rfl
  | [_], b => by
    constructor
    · intro h; cases h
    · intro h; cases h
  | c :: d :: l, b => by
    constructor
    · intro h
      simp only [unhexlify, Option.bind_eq_bind, Option.bind_eq_some_iff, Option.some.injEq] at h
      obtain ⟨x, hx, y, hy, r, hr, rfl⟩ := h
      obtain ⟨h1, h2⟩ := (hexNibble_spellings c x).mp hx
      obtain ⟨h3, h4⟩ := (hexNibble_spellings d y).mp hy
      have e : (UInt8.ofNat (x * 16 + y)).toNat = x * 16 + y := by
        rw [UInt8.toNat_ofNat']
        omega
      refine .cons ?_ ?_ ((unhexlify_spells l r).mp hr)
      · rw [e, show (x * 16 + y) / 16 = x by omega]; exact h2
      · rw [e, show (x * 16 + y) % 16 = y by omega]; exact h4
    · intro h
      cases h with
      | @cons _ _ _ b bs hc hd h =>
        have hb := b.toNat_lt
        have e1 := (hexNibble_spellings c (b.toNat / 16)).mpr ⟨by omega, hc⟩
        have e2 := (hexNibble_spellings d (b.toNat % 16)).mpr ⟨by omega, hd⟩
        have e3 := (unhexlify_spells l bs).mpr h
        simp only [unhexlify, Option.bind_eq_bind, e1, e2, e3, Option.bind_some, Option.some.injEq, List.cons.injEq, and_true]
        rw [show b.toNat / 16 * 16 + b.toNat % 16 = b.toNat by omega]
        exact UInt8.ofNat_toNat

/-- **C45, reading.** `hex_to_ascii` reads exactly the strings of hexadecimal digits, two for each byte, in upper or lower case; everything else raises
the declared `DataParsingError`. -/
theorem C45_reads_any_spelling (s : List Char) :
    (∀ b, hexToAscii s = .ok b ↔ Spells s b) ∧ ((∀ b, ¬ Spells s b) → hexToAscii s = .error .dataParsing) := by
  constructor
  · intro b
    rw [← unhexlify_spells]
    unfold hexToAscii
    split
    · rename_i b' h; rw [h]
      exact ⟨fun h => (by cases h; rfl), fun h => (by cases h; rfl)⟩
    · rename_i h; rw [h]
      exact ⟨fun h => (by cases h), fun h => (by cases h)⟩
  · intro h
    unfold hexToAscii
    split
    · rename_i b hb
      exact absurd ((unhexlify_spells s b).mp hb) (h b)
    · rfl

example : Spells "0fF1".toList [15, 241] := .cons (by decide) (by decide) (.cons (by decide) (by decide) .nil)

/-! ## C46 -/

section Ranges
variable {K : Type} [Field K] [LinearOrder K] [IsStrictOrderedRing K]

omit [IsStrictOrderedRing K] in
theorem unpack_u16 (lo hi : UInt8) (bytes : Bytes) (offset : Nat) (h : slice bytes offset (offset + 2) = [lo, hi]) (fl : K → K)
    (lower upper : K) :
    packedU16ToFloat fl bytes offset lower upper = .ok (unpackRange fl 65535 (lo.toNat + 256 * hi.toNat) lower upper) := by
  unfold packedU16ToFloat
  rw [h]
  have : structUnpack .little .H [lo, hi] = .ok ((lo.toNat + 256 * hi.toNat : Nat) : Int) := by
    simp [structUnpack, IntFmt.size, IntFmt.signed, Endian.order, leVal]
  rw [this]
  rfl

omit [IsStrictOrderedRing K] in
theorem unpack_u8 (b : UInt8) (bytes : Bytes) (offset : Nat) (h : slice bytes offset (offset + 1) = [b]) (fl : K → K)
    (lower upper : K) :
    packedU8ToFloat fl bytes offset lower upper = .ok (unpackRange fl 255 b.toNat lower upper) := by
  unfold packedU8ToFloat
  rw [h]
  have : structUnpack .little .B [b] = .ok ((b.toNat : Nat) : Int) := by
    simp [structUnpack, IntFmt.size, IntFmt.signed, Endian.order, leVal]
  rw [this]
  rfl

/-- The number that two bytes at an offset hold. -/
def U16At (bytes : Bytes) (offset : Nat) (u : Nat) : Prop := ∃ lo hi : UInt8, slice bytes offset (offset + 2) = [lo, hi] ∧ u = lo.toNat + 256 * hi.toNat

/-- The number that the byte at an offset holds. -/
def U8At (bytes : Bytes) (offset : Nat) (u : Nat) : Prop := ∃ b : UInt8, slice bytes offset (offset + 1) = [b] ∧ u = b.toNat

/-- **C46, monotone**, under floating-point arithmetic with any monotone rounding that keeps zero (IEEE rounding to nearest, or none). -/
theorem C46_u16_monotone (fl : K → K) (hfl : Monotone fl) (h0 : fl 0 = 0) (lower upper : K) (h : lower ≤ upper) (b b' : Bytes) (o o' u u' : Nat)
    (hu : U16At b o u) (hu' : U16At b' o' u') (hle : u ≤ u') :
    ∃ x y, packedU16ToFloat fl b o lower upper = .ok x ∧ packedU16ToFloat fl b' o' lower upper = .ok y ∧ x ≤ y := by
  obtain ⟨lo, hi, h1, rfl⟩ := hu
  obtain ⟨lo', hi', h1', rfl⟩ := hu'
  exact ⟨_, _, unpack_u16 lo hi b o h1 fl lower upper, unpack_u16 lo' hi' b' o' h1' fl lower upper,
    unpackRange_mono fl hfl h0 65535 (by norm_num) lower upper h hle⟩

/-- **C46, monotone**, 8 bit. -/
theorem C46_u8_monotone (fl : K → K) (hfl : Monotone fl) (h0 : fl 0 = 0) (lower upper : K) (h : lower ≤ upper) (b b' : Bytes) (o o' u u' : Nat)
    (hu : U8At b o u) (hu' : U8At b' o' u') (hle : u ≤ u') :
    ∃ x y, packedU8ToFloat fl b o lower upper = .ok x ∧ packedU8ToFloat fl b' o' lower upper = .ok y ∧ x ≤ y := by
  obtain ⟨c, h1, rfl⟩ := hu
  obtain ⟨c', h1', rfl⟩ := hu'
  exact ⟨_, _, unpack_u8 c b o h1 fl lower upper, unpack_u8 c' b' o' h1' fl lower upper,
    unpackRange_mono fl hfl h0 255 (by norm_num) lower upper h hle⟩

/-- **C46, value and range.** In exact arithmetic the result differs from the exact point of the range by less than one step, and lies in
`[lower, upper]` if that range contains zero or stays a step away from it; it is `lower` at 0 and `upper` at the maximum unless that bound is
a non-zero number closer than a step to zero (see `C46_near_zero`). -/
theorem C46_range_value (max : K) (hmax : 0 < max) (u : Nat) (hu : (u : K) ≤ max) (lower upper : K) (h : lower < upper) :
    |unpackRange id max u lower upper - rangePoint max lower upper u| < (upper - lower) / max ∧
    (((lower ≤ 0 ∧ 0 ≤ upper) ∨ (upper - lower) / max ≤ lower ∨ upper ≤ -((upper - lower) / max)) →
      lower ≤ unpackRange id max u lower upper ∧ unpackRange id max u lower upper ≤ upper) ∧
    (lower = 0 ∨ (upper - lower) / max ≤ |lower| → unpackRange id max 0 lower upper = lower) ∧
    ∀ m : Nat, (m : K) = max → (upper = 0 ∨ (upper - lower) / max ≤ |upper| → unpackRange id max m lower upper = upper) := by
  refine ⟨unpackRange_error max hmax u lower upper h, unpackRange_bounds max hmax u hu lower upper h, ?_, ?_⟩
  · intro hl
    rw [unpackRange_exact]
    have e : rangePoint max lower upper 0 = lower := by simp [rangePoint]
    rw [e]
    rcases hl with rfl | hl
    · simp
    · simp [not_lt.mpr hl]
  · intro m hm hl
    rw [unpackRange_exact]
    have e : rangePoint max lower upper m = upper := by
      unfold rangePoint
      rw [hm, div_self hmax.ne']
      ring
    rw [e]
    rcases hl with rfl | hl
    · simp
    · simp [not_lt.mpr hl]

/-- **C46, exact value.** The point of the range that the number denotes, except that a point closer than one step to zero gives zero. -/
theorem C46_exact (lower upper : K) (b : Bytes) (o u : Nat) :
    (U16At b o u → packedU16ToFloat id b o lower upper =
      .ok (if |rangePoint 65535 lower upper u| < (upper - lower) / 65535 then 0 else rangePoint 65535 lower upper u)) ∧
    (U8At b o u → packedU8ToFloat id b o lower upper =
      .ok (if |rangePoint 255 lower upper u| < (upper - lower) / 255 then 0 else rangePoint 255 lower upper u)) := by
  constructor
  · rintro ⟨lo, hi, h1, rfl⟩
    rw [unpack_u16 lo hi b o h1, unpackRange_exact]
  · rintro ⟨c, h1, rfl⟩
    rw [unpack_u8 c b o h1, unpackRange_exact]

/-- **C46, 16 bit.** The same through the API. -/
theorem C46_u16 (b : Bytes) (o u : Nat) (hb : U16At b o u) (lower upper : K) (h : lower < upper) :
    ∃ x, packedU16ToFloat id b o lower upper = .ok x ∧
      |x - rangePoint 65535 lower upper u| < (upper - lower) / 65535 ∧
      ((lower ≤ 0 ∧ 0 ≤ upper) ∨ (upper - lower) / 65535 ≤ lower ∨ upper ≤ -((upper - lower) / 65535) → lower ≤ x ∧ x ≤ upper) ∧
      (u = 0 → (lower = 0 ∨ (upper - lower) / 65535 ≤ |lower|) → x = lower) ∧
      (u = 65535 → (upper = 0 ∨ (upper - lower) / 65535 ≤ |upper|) → x = upper) := by
  obtain ⟨lo, hi, h1, rfl⟩ := hb
  have hu : ((lo.toNat + 256 * hi.toNat : Nat) : K) ≤ 65535 := by
    have := lo.toNat_lt
    have := hi.toNat_lt
    have h2 : lo.toNat + 256 * hi.toNat ≤ 65535 := by omega
    exact_mod_cast h2
  obtain ⟨p1, p2, p3, p4⟩ := C46_range_value (65535 : K) (by norm_num) _ hu lower upper h
  refine ⟨_, unpack_u16 lo hi b o h1 id lower upper, p1, p2, ?_, ?_⟩
  · intro hz; rw [hz]; exact p3
  · intro hz; rw [hz]; exact p4 65535 (by norm_num)

/-- **C46, 8 bit.** The same through the API. -/
theorem C46_u8 (b : Bytes) (o u : Nat) (hb : U8At b o u) (lower upper : K) (h : lower < upper) :
    ∃ x, packedU8ToFloat id b o lower upper = .ok x ∧
      |x - rangePoint 255 lower upper u| < (upper - lower) / 255 ∧
      ((lower ≤ 0 ∧ 0 ≤ upper) ∨ (upper - lower) / 255 ≤ lower ∨ upper ≤ -((upper - lower) / 255) → lower ≤ x ∧ x ≤ upper) ∧
      (u = 0 → (lower = 0 ∨ (upper - lower) / 255 ≤ |lower|) → x = lower) ∧
      (u = 255 → (upper = 0 ∨ (upper - lower) / 255 ≤ |upper|) → x = upper) := by
  obtain ⟨c, h1, rfl⟩ := hb
  have hu : ((c.toNat : Nat) : K) ≤ 255 := by
    have := c.toNat_lt
    have h2 : c.toNat ≤ 255 := by omega
    exact_mod_cast h2
  obtain ⟨p1, p2, p3, p4⟩ := C46_range_value (255 : K) (by norm_num) _ hu lower upper h
  refine ⟨_, unpack_u8 c b o h1 id lower upper, p1, p2, ?_, ?_⟩
  · intro hz; rw [hz]; exact p3
  · intro hz; rw [hz]; exact p4 255 (by norm_num)

omit [IsStrictOrderedRing K] in
/-- A buffer that ends before the number raises `struct.error`. -/
theorem C46_short_buffer (fl : K → K) (b : Bytes) (o : Nat) (lower upper : K) (h : b.length < o + 2) :
    packedU16ToFloat fl b o lower upper = .error .structError := by
  unfold packedU16ToFloat structUnpack
  have : ¬ (slice b o (o + 2)).length = IntFmt.H.size := by
    simp only [slice, List.length_take, List.length_drop, IntFmt.size]
    omega
  simp only [this, if_false]
  rfl

end Ranges

/-- The velocity range of an object update: 0 is -128, the middle value is exactly 0, the maximum is 128. -/
example : U16At [9, 255, 127] 1 32767 := ⟨255, 127, rfl, rfl⟩
example : unpackRange (id : ℚ → ℚ) 65535 0 (-128) 128 = -128 ∧ unpackRange (id : ℚ → ℚ) 65535 32767 (-128) 128 = 0 ∧
    unpackRange (id : ℚ → ℚ) 65535 65535 (-128) 128 = 128 := by decide +kernel

/-- **C46, consequence:** in a range that starts between zero and one step the lower end decodes to 0, outside the range. -/
theorem C46_near_zero : ∃ lower upper : ℚ, lower < upper ∧ packedU8ToFloat id [0] 0 lower upper = .ok 0 ∧ (0 : ℚ) < lower :=
  ⟨1 / 1000, 1, by decide +kernel, by decide +kernel, by decide +kernel⟩

/-! ## C08 -/

/-- **C08.** A unit quaternion, packed to three components and unpacked, is itself or its negation, with `W ≥ 0`: the same rotation. -/
theorem C08_same_rotation (x y z w : ℝ) (hunit : x * x + y * y + z * z + w * w = 1) :
    ∃ a b c, packQuaternionToVector3 x y z w = (a, b, c) ∧ 0 ≤ reconstructW a b c ∧
      ((a, b, c, reconstructW a b c) = (x, y, z, w) ∨ (a, b, c, reconstructW a b c) = (-x, -y, -z, -w)) ∧
      ∀ v, rotate a b c (reconstructW a b c) v = rotate x y z w v := by
  have hW : ∀ a b c d : ℝ, a * a + b * b + c * c + d * d = 1 → 0 ≤ d → reconstructW a b c = d := by
    intro a b c d h hd
    unfold reconstructW reconstructWith
    simp only [id]
    have ht : 1 - (a * a + b * b + c * c) = d * d := by linarith
    simp only [ht]
    by_cases h0 : 0 < d * d
    · simp only [h0, if_true]
      exact Real.sqrt_mul_self hd
    · simp only [h0, if_false]
      have : d * d = 0 := le_antisymm (not_lt.mp h0) (mul_self_nonneg d)
      exact (mul_self_eq_zero.mp this).symm
  by_cases hw : 0 ≤ w
  · have := hW x y z w hunit hw
    refine ⟨x, y, z, by simp [packQuaternionToVector3, hw], ?_, ?_, ?_⟩
    · rw [this]; exact hw
    · rw [this]; exact .inl rfl
    · intro v; rw [this]
  · have hw' : 0 ≤ -w := by linarith
    have := hW (-x) (-y) (-z) (-w) (by linarith) hw'
    refine ⟨-x, -y, -z, by simp [packQuaternionToVector3, hw], ?_, ?_, ?_⟩
    · rw [this]; exact hw'
    · rw [this]; exact .inr rfl
    · intro v
      rw [this]
      obtain ⟨p, q, r⟩ := v
      unfold rotate
      simp only [Prod.mk.injEq]
      refine ⟨?_, ?_, ?_⟩ <;> ring

/-- Examples of unit quaternions, one with a negative `w`. -/
example : (3 / 5 : ℝ) * (3 / 5) + 0 * 0 + 0 * 0 + (-4 / 5) * (-4 / 5) = 1 := by norm_num
example : (1 / 2 : ℝ) * (1 / 2) + (1 / 2) * (1 / 2) + (-1 / 2) * (-1 / 2) + (1 / 2) * (1 / 2) = 1 := by norm_num

end Pyogp
