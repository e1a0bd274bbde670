import Mathlib.Tactic.Linarith
import Mathlib.Tactic.Ring
import Mathlib.Tactic.FieldSimp
import Verif.Spec.Helpers

/-! # Proofs about the helpers -/

namespace Pyogp
open Spec

/-! ## int_to_bytes -/

theorem structPack_byte (v : PyVersion) (x : Int) (h0 : 0 ≤ x) (h1 : x < 256) :
    structPack v .little .B x = .ok [UInt8.ofNat x.toNat] := by
  unfold structPack
  have : IntFmt.lo .B ≤ x ∧ x < IntFmt.hi .B := by
    constructor
    · show (0 : Int) ≤ x; exact h0
    · show x < (2 ^ (8 * 1) : Nat); omega
  simp only [this, and_self, if_true, Endian.order, IntFmt.size, leBytes]
  have : (x % ((2 ^ (8 * 1) : Nat) : Int)).toNat % 256 = x.toNat := by omega
  rw [this]

theorem intToBytes_eq (v : PyVersion) (n : Int) :
    intToBytes v n = .ok [UInt8.ofNat (n % 256).toNat, UInt8.ofNat (n / 256 % 256).toNat, UInt8.ofNat (n / 65536 % 256).toNat,
      UInt8.ofNat (n / 16777216 % 256).toNat] := by
  have e1 : n >>> 8 = n / 256 := by rw [Int.shiftRight_eq_div_pow]; rfl
  have e2 : n >>> 16 = n / 65536 := by rw [Int.shiftRight_eq_div_pow]; rfl
  have e3 : n >>> 24 = n / 16777216 := by rw [Int.shiftRight_eq_div_pow]; rfl
  have b : ∀ m : Int, 0 ≤ m % 256 ∧ m % 256 < 256 := fun m => ⟨by omega, by omega⟩
  unfold intToBytes
  rw [e1, e2, e3, structPack_byte v _ (b n).1 (b n).2, structPack_byte v _ (b _).1 (b _).2, structPack_byte v _ (b _).1 (b _).2,
    structPack_byte v _ (b _).1 (b _).2]
  rfl

theorem leValue4_intToBytes (n : Int) :
    leValue4 [UInt8.ofNat (n % 256).toNat, UInt8.ofNat (n / 256 % 256).toNat, UInt8.ofNat (n / 65536 % 256).toNat,
      UInt8.ofNat (n / 16777216 % 256).toNat] = n % 4294967296 := by
  have h : ∀ m : Int, ((UInt8.ofNat (m % 256).toNat).toNat : Int) = m % 256 := by
    intro m
    rw [UInt8.toNat_ofNat']
    omega
  simp only [leValue4, List.getD_cons_zero, List.getD_cons_succ, h]
  omega

/-! ## Hexadecimal dumps -/

theorem hex02_eq (b : UInt8) : hex02 b.toNat = twoDigits b ++ [' '] := by
  have h : ∀ n : Fin 256, hex02 n.val = [hexAlphabet.getD (n.val / 16) '?', hexAlphabet.getD (n.val % 16) '?'] ++ [' '] := by
    decide +kernel
  exact h ⟨b.toNat, b.toNat_lt⟩

theorem hexDigit_facts (n : Nat) (h : n < 16) :
    hexNibble (hexAlphabet.getD n '?') = some n ∧ isWs (hexAlphabet.getD n '?') = false := by
  have : ∀ k : Fin 16, hexNibble (hexAlphabet.getD k.val '?') = some k.val ∧ isWs (hexAlphabet.getD k.val '?') = false := by decide +kernel
  exact this ⟨n, h⟩

/-- The dump with a space after every byte. -/
def dump (data : Bytes) : List Char := data.flatMap (fun b => twoDigits b ++ [' '])

theorem dump_eq (data : Bytes) : data.flatMap (fun x => hex02 x.toNat) = dump data := by
  unfold dump
  congr 1
  funext b
  exact hex02_eq b

theorem twoDigits_notWs (b : UInt8) : ∀ c ∈ twoDigits b, isWs c = false := by
  intro c hc
  simp only [twoDigits, List.mem_cons, List.not_mem_nil, or_false] at hc
  rcases hc with rfl | rfl
  · exact (hexDigit_facts _ (by have := b.toNat_lt; omega)).2
  · exact (hexDigit_facts _ (by omega)).2

theorem strip_dump_snoc (data : Bytes) (b : UInt8) : strip (dump (data ++ [b])) = dump data ++ twoDigits b := by
  have hd : dump (data ++ [b]) = dump data ++ twoDigits b ++ [' '] := by simp [dump]
  have hh : ∀ (l : List Char), (∃ c r, l = c :: r ∧ isWs c = false) → l.dropWhile isWs = l := by
    rintro l ⟨c, r, rfl, hc⟩
    simp [hc]
  have h1 : (dump (data ++ [b])).dropWhile isWs = dump (data ++ [b]) := by
    apply hh
    cases data with
    | nil => exact ⟨_, _, rfl, twoDigits_notWs b _ (List.mem_cons_self)⟩
    | cons x data => exact ⟨_, _, rfl, twoDigits_notWs x _ (List.mem_cons_self)⟩
  unfold strip
  rw [h1, hd, List.reverse_append]
  have h2 : ([' '] : List Char).reverse ++ (dump data ++ twoDigits b).reverse = ' ' :: (dump data ++ twoDigits b).reverse := rfl
  have h3 : isWs ' ' = true := by decide
  rw [h2, List.dropWhile_cons, h3]
  simp only [if_true]
  rw [hh _ ?_, List.reverse_reverse]
  rw [List.reverse_append]
  exact ⟨_, _, rfl, twoDigits_notWs b _ (by simp [twoDigits])⟩

theorem dump_ne_space_filter (data : Bytes) : (dump data).filter (· ≠ ' ') = data.flatMap twoDigits := by
  have hns : ∀ b : UInt8, (twoDigits b).filter (· ≠ ' ') = twoDigits b := by
    intro b
    apply List.filter_eq_self.mpr
    intro c hc
    have := twoDigits_notWs b c hc
    by_cases h : c = ' '
    · subst h; revert this; decide
    · simp [h]
  induction data with
  | nil => rfl
  | cons b data ih =>
    have : dump (b :: data) = twoDigits b ++ ([' '] ++ dump data) := by simp [dump]
    rw [this, List.filter_append, List.filter_append, hns, ih]
    rfl

theorem unhexlify_digits (data : Bytes) : unhexlify (data.flatMap twoDigits) = some data := by
  induction data with
  | nil => rfl
  | cons b data ih =>
    have hb := b.toNat_lt
    have h1 := (hexDigit_facts (b.toNat / 16) (by omega)).1
    have h2 := (hexDigit_facts (b.toNat % 16) (by omega)).1
    simp only [List.flatMap_cons, twoDigits, List.cons_append, List.nil_append, unhexlify, h1, h2, ih, Option.bind_eq_bind, Option.bind_some]
    congr 2
    have : b.toNat / 16 * 16 + b.toNat % 16 = b.toNat := by omega
    rw [this]
    simp

theorem bytesToHex_filter (data : Bytes) : (bytesToHex data).filter (· ≠ ' ') = data.flatMap twoDigits := by
  unfold bytesToHex
  rw [dump_eq]
  rcases List.eq_nil_or_concat data with rfl | ⟨d, b, rfl⟩
  · rfl
  · rw [List.concat_eq_append, strip_dump_snoc, List.filter_append, dump_ne_space_filter]
    have : (twoDigits b).filter (· ≠ ' ') = twoDigits b := by
      apply List.filter_eq_self.mpr
      intro c hc
      have := twoDigits_notWs b c hc
      by_cases h : c = ' '
      · subst h; revert this; decide
      · simp [h]
    rw [this]
    simp

theorem bytesToHex_intercalate (data : Bytes) : bytesToHex data = [' '].intercalate (data.map twoDigits) := by
  unfold bytesToHex
  rw [dump_eq]
  rcases List.eq_nil_or_concat data with rfl | ⟨d, b, rfl⟩
  · rfl
  · rw [List.concat_eq_append, strip_dump_snoc]
    induction d with
    | nil => simp [dump, List.intercalate]
    | cons x d ih =>
      have h1 : dump (x :: d) = twoDigits x ++ ([' '] ++ dump d) := by simp [dump]
      rw [h1, List.append_assoc, List.append_assoc, ih]
      cases d with
      | nil => simp [List.intercalate]
      | cons y d => simp [List.intercalate]

/-! ## Ranges -/

section Ranges
variable {K : Type} [Field K] [LinearOrder K] [IsStrictOrderedRing K]

theorem snap_mono (e : K) {a b : K} (hab : a ≤ b) : (if |a| < e then 0 else a) ≤ (if |b| < e then 0 else b) := by
  by_cases ha : |a| < e <;> by_cases hb : |b| < e
  · simp [ha, hb]
  · simp only [ha, hb, if_true, if_false]
    have := (abs_lt.mp ha).1
    rcases le_abs.mp (not_lt.mp hb) with h | h <;> linarith [(abs_lt.mp ha).2, abs_nonneg a]
  · simp only [ha, hb, if_true, if_false]
    have := (abs_lt.mp hb).2
    rcases le_abs.mp (not_lt.mp ha) with h | h <;> linarith [(abs_lt.mp hb).1, abs_nonneg b]
  · simp only [ha, hb, if_false]; exact hab

theorem unpackRange_mono (fl : K → K) (hfl : Monotone fl) (h0 : fl 0 = 0) (max : K) (hmax : 0 < max) (lower upper : K)
    (h : lower ≤ upper) {u v : Nat} (huv : u ≤ v) : unpackRange fl max u lower upper ≤ unpackRange fl max v lower upper := by
  unfold unpackRange
  have hoo : 0 ≤ fl (1 / max) := by rw [← h0]; exact hfl (by positivity)
  have hd : 0 ≤ fl (upper - lower) := by rw [← h0]; exact hfl (by linarith)
  have huv' : (u : K) ≤ (v : K) := Nat.cast_le.mpr huv
  have h1 : fl ((u : K) * fl (1 / max)) ≤ fl ((v : K) * fl (1 / max)) := hfl (mul_le_mul_of_nonneg_right huv' hoo)
  have h2 := hfl (mul_le_mul_of_nonneg_right h1 hd)
  have h3 := hfl (add_le_add_left h2 lower)
  exact snap_mono _ h3

/-- In exact arithmetic. -/
theorem unpackRange_exact (max : K) (u : Nat) (lower upper : K) :
    unpackRange id max u lower upper =
      if |rangePoint max lower upper u| < (upper - lower) / max then 0 else rangePoint max lower upper u := by
  unfold unpackRange rangePoint
  simp only [id]
  have h1 : (u : K) * (1 / max) * (upper - lower) + lower = lower + u / max * (upper - lower) := by ring
  have h2 : (upper - lower) * (1 / max) = (upper - lower) / max := by ring
  rw [h1, h2]

theorem unpackRange_error (max : K) (hmax : 0 < max) (u : Nat) (lower upper : K) (h : lower < upper) :
    |unpackRange id max u lower upper - rangePoint max lower upper u| < (upper - lower) / max := by
  rw [unpackRange_exact]
  by_cases hs : |rangePoint max lower upper u| < (upper - lower) / max
  · simp only [hs, if_true, zero_sub, abs_neg]
  · simp only [hs, if_false, sub_self, abs_zero]
    exact div_pos (by linarith) hmax

theorem rangePoint_bounds (max : K) (hmax : 0 < max) (u : Nat) (hu : (u : K) ≤ max) (lower upper : K) (h : lower < upper) :
    lower ≤ rangePoint max lower upper u ∧ rangePoint max lower upper u ≤ upper := by
  unfold rangePoint
  have h1 : 0 ≤ (u : K) / max := by positivity
  have h2 : (u : K) / max ≤ 1 := (div_le_one hmax).mpr hu
  have hd : 0 < upper - lower := by linarith
  constructor
  · nlinarith [mul_nonneg h1 hd.le]
  · nlinarith [mul_le_mul_of_nonneg_right h2 hd.le]

theorem unpackRange_bounds (max : K) (hmax : 0 < max) (u : Nat) (hu : (u : K) ≤ max) (lower upper : K) (h : lower < upper)
    (hz : (lower ≤ 0 ∧ 0 ≤ upper) ∨ (upper - lower) / max ≤ lower ∨ upper ≤ -((upper - lower) / max)) :
    lower ≤ unpackRange id max u lower upper ∧ unpackRange id max u lower upper ≤ upper := by
  have hb := rangePoint_bounds max hmax u hu lower upper h
  rw [unpackRange_exact]
  by_cases hs : |rangePoint max lower upper u| < (upper - lower) / max
  · simp only [hs, if_true]
    have hs' := abs_lt.mp hs
    rcases hz with hz | hz | hz
    · exact hz
    · exfalso; linarith [hs'.2, hb.1]
    · exfalso; linarith [hs'.1, hb.2]
  · simp only [hs, if_false]; exact hb

end Ranges

end Pyogp
