import Verif.Model.Ieee
import Verif.Proofs.Ieee

/-! # Rounding errors of the operations on bit patterns, in units of `2^-1074` -/

namespace Pyogp
open Spec

theorem roundShift_close (S sh : Nat) : 2 * (roundShift S sh * 2 ^ sh) ≤ 2 * S + 2 ^ sh ∧ 2 * S ≤ 2 * (roundShift S sh * 2 ^ sh) + 2 ^ sh := by
  have h := Nat.div_add_mod S (2 ^ sh)
  have hr := Nat.mod_lt S (Nat.two_pow_pos sh)
  rw [roundShift_eq]
  generalize S / 2 ^ sh = q at *
  generalize S % 2 ^ sh = r at *
  generalize 2 ^ sh = P at *
  rw [Nat.mul_comm] at h
  by_cases hc : P < 2 * r ∨ 2 * r = P ∧ q % 2 = 1
  · rw [if_pos hc, Nat.add_mul, Nat.one_mul]
    omega
  · rw [if_neg hc]
    omega

/-- `mag64` of a sign-less pattern. -/
def umag (n : Nat) : Nat := if n / 2 ^ 52 = 0 then n % 2 ^ 52 else (2 ^ 52 + n % 2 ^ 52) * 2 ^ (n / 2 ^ 52 - 1)

theorem umag_normal {q j : Nat} (h1 : 2 ^ 52 ≤ q) (h2 : q ≤ 2 ^ 53) : umag (j * 2 ^ 52 + q) = q * 2 ^ j := by
  unfold umag
  rcases Nat.lt_or_eq_of_le h2 with h | h
  · have e1 : (j * 2 ^ 52 + q) / 2 ^ 52 = j + 1 := by omega
    have e2 : (j * 2 ^ 52 + q) % 2 ^ 52 = q - 2 ^ 52 := by omega
    rw [e1, e2, if_neg (by omega), show 2 ^ 52 + (q - 2 ^ 52) = q by omega, Nat.add_sub_cancel]
  · have e1 : (j * 2 ^ 52 + q) / 2 ^ 52 = j + 2 := by omega
    have e2 : (j * 2 ^ 52 + q) % 2 ^ 52 = 0 := by omega
    rw [e1, e2, if_neg (by omega), h]
    rw [show j + 2 - 1 = 1 + j by omega, Nat.pow_add 2 1, ← Nat.mul_assoc]

theorem umag_small {q : Nat} (h : q ≤ 2 ^ 53) : umag q = q := by
  rcases Nat.lt_or_ge q (2 ^ 52) with h' | h'
  · unfold umag
    rw [if_pos (by omega), Nat.mod_eq_of_lt h']
  · have := umag_normal (j := 0) h' h
    simpa using this

theorem mag64_umag {n : Nat} (h : n < 2 ^ 63) (s : Nat) : mag64 (s * 2 ^ 63 + n) = umag n := by
  unfold mag64 umag
  have e1 : (s * 2 ^ 63 + n) / 2 ^ 52 % 2 ^ 11 = n / 2 ^ 52 := by omega
  have e2 : (s * 2 ^ 63 + n) % 2 ^ 52 = n % 2 ^ 52 := by omega
  rw [e1, e2]

theorem roundBits_close (N k : Nat) (h : Nat.log2 N ≤ k + 1076) :
    roundBits N k < 2047 * 2 ^ 52 ∧ 2 * (umag (roundBits N k) * 2 ^ k) ≤ 2 * N + 2 ^ (k + 1024) ∧
    2 * N ≤ 2 * (umag (roundBits N k) * 2 ^ k) + 2 ^ (k + 1024) := by
  unfold roundBits
  by_cases hl : Nat.log2 N < k + 53
  · simp only [hl, if_true]
    have hq : N / 2 ^ k < 2 ^ 53 := by
      rw [Nat.div_lt_iff_lt_mul (Nat.two_pow_pos k), ← Nat.pow_add, Nat.add_comm 53]
      by_cases h0 : N = 0
      · subst h0; exact Nat.two_pow_pos _
      · exact (Nat.log2_lt h0).mp hl
    have hb := roundShift_le hq
    have hc := roundShift_close N k
    rw [if_pos (by omega), umag_small hb]
    have hp : 2 ^ k ≤ 2 ^ (k + 1024) := Nat.pow_le_pow_right (by decide) (by omega)
    refine ⟨by omega, ?_, ?_⟩ <;> omega
  · simp only [hl, if_false]
    have hN : N ≠ 0 := by
      rintro rfl
      simp at hl
    generalize hL : Nat.log2 N = L at *
    obtain ⟨j, rfl⟩ : ∃ j, L = k + 52 + j := ⟨L - (k + 52), by omega⟩
    have hlo : 2 ^ (k + 52 + j) ≤ N := by
      have := (Nat.le_log2 hN (k := k + 52 + j)).mp (by omega)
      exact this
    have hhi : N < 2 ^ (k + 52 + j + 1) := (Nat.log2_lt hN).mp (by omega)
    have e1 : k + 52 + j - k - 52 = j := by omega
    have e2 : k + 52 + j - 52 = k + j := by omega
    rw [e1, e2]
    have hq : N / 2 ^ (k + j) < 2 ^ 53 := by
      rw [Nat.div_lt_iff_lt_mul (Nat.two_pow_pos _), ← Nat.pow_add]
      rwa [show 53 + (k + j) = k + 52 + j + 1 by omega]
    have hq' : 2 ^ 52 ≤ N / 2 ^ (k + j) := by
      rw [Nat.le_div_iff_mul_le (Nat.two_pow_pos _), ← Nat.pow_add]
      rwa [show 52 + (k + j) = k + 52 + j by omega]
    have hb := roundShift_le hq
    have hg := roundShift_ge (S := N) (sh := k + j)
    have hc := roundShift_close N (k + j)
    rw [if_pos (by omega), umag_normal (by omega) hb, Nat.mul_assoc, ← Nat.pow_add, Nat.add_comm j k]
    have hp : 2 ^ (k + j) ≤ 2 ^ (k + 1024) := Nat.pow_le_pow_right (by decide) (by omega)
    refine ⟨by omega, ?_, ?_⟩ <;> omega

/-- The value in units, from sign and magnitude. -/
theorem units_eq (x : F64) : x.units = if neg64 x.toNat then -(mag64 x.toNat : Int) else (mag64 x.toNat : Int) := by
  unfold F64.units mag64 neg64
  simp only [decide_eq_true_eq]

theorem ofUnits_spec (i : Int) (k : Nat) (h : Nat.log2 i.natAbs ≤ k + 1076) :
    Finite64 (F64.ofUnits i k).toNat ∧ (F64.ofUnits i k).units = (if i < 0 then -(umag (roundBits i.natAbs k) : Int) else umag (roundBits i.natAbs k)) := by
  obtain ⟨h1, -, -⟩ := roundBits_close i.natAbs k h
  have hn : (F64.ofUnits i k).toNat = (if i < 0 then 1 else 0) * 2 ^ 63 + roundBits i.natAbs k := by
    unfold F64.ofUnits
    rw [BitVec.toNat_ofNat, Nat.mod_eq_of_lt]
    · by_cases hi : i < 0 <;> simp [hi]
    · by_cases hi : i < 0 <;> simp only [hi, if_true, if_false] <;> omega
  rw [units_eq, hn, mag64_umag (by omega)]
  refine ⟨?_, ?_⟩
  · unfold Finite64
    by_cases hi : i < 0 <;> simp only [hi, if_true, if_false] <;> omega
  · unfold neg64
    generalize roundBits i.natAbs k = b at *
    by_cases hi : i < 0
    · have : (1 * 2 ^ 63 + b) / 2 ^ 63 % 2 = 1 := by omega
      simp only [hi, if_true, this, decide_true]
    · have : (0 * 2 ^ 63 + b) / 2 ^ 63 % 2 ≠ 1 := by omega
      simp only [hi, if_false, this, decide_false, Bool.false_eq_true]

/-- The rounding error: at most `2^1023` units for results up to 4. -/
theorem ofUnits_close (i : Int) (k : Nat) (h : Nat.log2 i.natAbs ≤ k + 1076) :
    Finite64 (F64.ofUnits i k).toNat ∧ (0 ≤ i → 0 ≤ (F64.ofUnits i k).units) ∧ (i ≤ 0 → (F64.ofUnits i k).units ≤ 0) ∧
    2 * ((F64.ofUnits i k).units * 2 ^ k) ≤ 2 * i + 2 ^ (k + 1024) ∧ 2 * i ≤ 2 * ((F64.ofUnits i k).units * 2 ^ k) + 2 ^ (k + 1024) := by
  obtain ⟨hf, hu⟩ := ofUnits_spec i k h
  obtain ⟨-, h2, h3⟩ := roundBits_close i.natAbs k h
  rw [hu]
  have hz : i = 0 → umag (roundBits i.natAbs k) = 0 := by
    rintro rfl
    have h1 : roundBits (Int.natAbs 0) k = 0 := by
      have h4 : Nat.log2 (Int.natAbs 0) < k + 53 := by
        show Nat.log2 0 < _
        simp
      unfold roundBits
      rw [if_pos h4]
      simp [roundShift]
    rw [h1]; rfl
  have h2' : 2 * ((umag (roundBits i.natAbs k) : Int) * 2 ^ k) ≤ 2 * (i.natAbs : Int) + 2 ^ (k + 1024) := by exact_mod_cast h2
  have h3' : 2 * (i.natAbs : Int) ≤ 2 * ((umag (roundBits i.natAbs k) : Int) * 2 ^ k) + 2 ^ (k + 1024) := by exact_mod_cast h3
  generalize umag (roundBits i.natAbs k) = m at *
  generalize (2 : Int) ^ (k + 1024) = P at *
  generalize (2 : Int) ^ k = Q at *
  refine ⟨hf, ?_, ?_, ?_, ?_⟩
  · intro h0; rw [if_neg (by omega)]; omega
  · intro h0
    by_cases hi : i < 0
    · rw [if_pos hi]; omega
    · rw [if_neg hi, hz (by omega)]; omega
  all_goals
    by_cases hi : i < 0
    · rw [if_pos hi, Int.neg_mul]
      generalize (m : Int) * Q = mq at *
      omega
    · rw [if_neg hi]
      generalize (m : Int) * Q = mq at *
      omega

theorem scale_close {a S P : Nat} (K : Nat) (h : 2 * a ≤ 2 * S + P ∧ 2 * S ≤ 2 * a + P) :
    2 * (a * K) ≤ 2 * (S * K) + P * K ∧ 2 * (S * K) ≤ 2 * (a * K) + P * K := by
  have a1 := Nat.mul_le_mul_right K h.1
  have a2 := Nat.mul_le_mul_right K h.2
  rw [Nat.add_mul, Nat.mul_assoc, Nat.mul_assoc] at a1 a2
  exact ⟨a1, a2⟩

/-- The rounding of a double below 2 to single: at most `2^1050` units. -/
theorem narrow_close {d : Nat} (hd : d < 2 ^ 64) (he : d / 2 ^ 52 % 2 ^ 11 ≤ 1023) :
    ∃ f, narrowBits d = some f ∧ f < 2 ^ 32 ∧ Finite32 f ∧ neg32 f = neg64 d ∧
      2 * mag32 f ≤ 2 * mag64 d + 2 ^ 1051 ∧ 2 * mag64 d ≤ 2 * mag32 f + 2 ^ 1051 := by
  have hfin : Finite64 d := by unfold Finite64; omega
  have key : ∃ f, narrowBits d = some f ∧ 2 * mag32 f ≤ 2 * mag64 d + 2 ^ 1051 ∧ 2 * mag64 d ≤ 2 * mag32 f + 2 ^ 1051 := by
    obtain ⟨c, hc⟩ : ∃ c, c = 925 := ⟨_, rfl⟩
    rw [show (1051 : Nat) = c + 126 by omega]
    have hm : d % 2 ^ 52 < 2 ^ 52 := Nat.mod_lt _ (by decide)
    unfold narrowBits mag64
    generalize d / 2 ^ 52 % 2 ^ 11 = e at *
    generalize d % 2 ^ 52 = m at *
    have hs : d / 2 ^ 63 < 2 := by omega
    generalize d / 2 ^ 63 = s at *
    have hmag : ∀ r, r < 2 ^ 31 → mag32 (s * 2 ^ 31 + r) = vmag c r := by
      intro r hr
      rw [mag32_vmag' _ hc, show (s * 2 ^ 31 + r) % 2 ^ 31 = r by omega]
    rw [if_neg (by omega)]
    by_cases h0 : e = 0
    · rw [if_pos h0, if_pos h0]
      refine ⟨_, rfl, ?_⟩
      have hz := hmag 0 (by decide)
      rw [Nat.add_zero] at hz
      rw [hz, vmag_sub (by decide), Nat.zero_mul]
      have hp : 2 ^ 53 ≤ 2 ^ (c + 126) := Nat.pow_le_pow_right (by decide) (by omega)
      generalize 2 ^ (c + 126) = P at *
      omega
    · rw [if_neg h0, if_neg h0]
      by_cases h1 : 897 ≤ e
      · simp only [h1, if_true]
        have hq : (2 ^ 52 + m) / 2 ^ 29 < 2 ^ 24 := by omega
        have hq' : 2 ^ 23 ≤ (2 ^ 52 + m) / 2 ^ 29 := by omega
        have hb := roundShift_le hq
        have hg := roundShift_ge (S := 2 ^ 52 + m) (sh := 29)
        have hcl := roundShift_close (2 ^ 52 + m) 29
        rw [if_neg (by omega)]
        refine ⟨_, rfl, ?_⟩
        rw [hmag _ (by omega), vmag_normal (by omega) hb]
        generalize roundShift (2 ^ 52 + m) 29 = r at *
        generalize 2 ^ 52 + m = S at *
        have ee : r * 2 ^ (e - 897 + c) = r * 2 ^ 29 * 2 ^ (e - 1) := by
          rw [Nat.mul_assoc, ← Nat.pow_add]
          rw [show 29 + (e - 1) = e - 897 + c by omega]
        have hp : 2 ^ 29 * 2 ^ (e - 1) ≤ 2 ^ (c + 126) := by
          rw [← Nat.pow_add]
          exact Nat.pow_le_pow_right (by decide) (by omega)
        rw [ee]
        generalize 2 ^ (e - 1) = K at *
        generalize 2 ^ (c + 126) = P at *
        have hk := scale_close K hcl
        generalize S * K = SK at *
        generalize r * 2 ^ 29 * K = rK at *
        omega
      · simp only [h1, if_false]
        obtain ⟨sh, hsh⟩ : ∃ sh, sh = 29 + (897 - e) := ⟨_, rfl⟩
        rw [← hsh]
        have hq : (2 ^ 52 + m) / 2 ^ sh < 2 ^ 23 := by
          rw [Nat.div_lt_iff_lt_mul (Nat.two_pow_pos _), ← Nat.pow_add]
          have : 2 ^ 53 ≤ 2 ^ (23 + sh) := Nat.pow_le_pow_right (by decide) (by omega)
          omega
        have hb := roundShift_le hq
        have hcl := roundShift_close (2 ^ 52 + m) sh
        rw [if_neg (by omega)]
        refine ⟨_, rfl, ?_⟩
        rw [hmag _ (by omega), vmag_sub hb]
        generalize roundShift (2 ^ 52 + m) sh = r at *
        generalize 2 ^ 52 + m = S at *
        have ee : r * 2 ^ c = r * 2 ^ sh * 2 ^ (e - 1) := by
          rw [Nat.mul_assoc, ← Nat.pow_add]
          rw [show sh + (e - 1) = c by omega]
        have hp : 2 ^ sh * 2 ^ (e - 1) ≤ 2 ^ (c + 126) := by
          rw [← Nat.pow_add]
          exact Nat.pow_le_pow_right (by decide) (by omega)
        rw [ee]
        generalize 2 ^ (e - 1) = K at *
        generalize 2 ^ (c + 126) = P at *
        have hk := scale_close K hcl
        generalize S * K = SK at *
        generalize r * 2 ^ sh * K = rK at *
        generalize 2 ^ sh * K = sK at *
        omega
  obtain ⟨f, h1, h2, h3⟩ := key
  obtain ⟨n1, n2, n3, -⟩ := narrow_nearest hd hfin h1
  exact ⟨f, h1, n1, n2, n3, h2, h3⟩

end Pyogp
