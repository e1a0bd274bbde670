import Verif.Proofs.Types

/-! # C01, C02: integer fields -/

namespace Pyogp
open Spec

/-- **C01.** An integer in the range of an integer wire type packs to exactly its base-256 digits in the requested byte
order (`en?`, default: the type's own order), with exactly `n` bytes, and unpacks to itself – from the packed string
and from any position of a longer buffer. -/
theorem C01_int_roundtrip (rt : Runtime) (ty : MsgType) (n : Nat) (s : Bool) (d : Endian)
    (h : wireInt ty = some (n, s, d)) (en? : Option Endian) (x : Int) (hx : InRange n s x) :
    ∃ b, packData rt (.num (.int x)) ty en? = .ok b ∧ IsDigits n (en?.getD d) x b ∧ sizeof ty = some b.length ∧
      unpackData rt b ty none none en? = .ok (.num (.int x)) ∧
      ∀ pre post, unpackData rt (pre ++ b ++ post) ty (some pre.length) none en? = .ok (.num (.int x)) := by
  obtain ⟨f, hp, hu, rfl, rfl, hs⟩ := table_of_wireInt h
  obtain ⟨b, hb, hub⟩ := structUnpack_structPack (v := rt.ver) (e := en?.getD d) (inRange_iff.mp hx)
  have hl := structPack_length hb
  refine ⟨b, by rw [packData_int hp, hb], structPack_digits hb, by rw [hs, hl], ?_, fun pre post => ?_⟩
  · rw [unpackData_int hu]
    simp only [selectBytes, hub]
    rfl
  · rw [unpackData_int hu]
    simp only [selectBytes, hs, slice_append pre b post _ hl, hub]
    rfl

example : wireInt .u32 = some (4, false, .little) ∧ InRange 4 false 4000000000 := by
  constructor <;> decide

/-- **C01**, values outside the range.  Python 2.7 rejects them; Python 2.5/2.6 rejects them for the 8-byte types and
otherwise sends the value modulo `2^(8n)`: what the receiver unpacks is in range and congruent to the value, so never
the value itself. -/
theorem C01_int_out_of_range (rt : Runtime) (ty : MsgType) (n : Nat) (s : Bool) (d : Endian)
    (h : wireInt ty = some (n, s, d)) (en? : Option Endian) (x : Int) (hx : ¬ InRange n s x) :
    (rt.ver = .v27 ∨ n = 8 → packData rt (.num (.int x)) ty en? = .error .structError) ∧
    (rt.ver = .v26 ∧ n ≠ 8 → ∃ b y, packData rt (.num (.int x)) ty en? = .ok b ∧ b.length = n ∧
      unpackData rt b ty none none en? = .ok (.num (.int y)) ∧ InRange n s y ∧ y ≠ x ∧
      (2 : Int) ^ (8 * n) ∣ x - y) := by
  obtain ⟨f, hp, hu, rfl, rfl, hs⟩ := table_of_wireInt h
  have hx' : ¬ (f.lo ≤ x ∧ x < f.hi) := fun c => hx (inRange_iff.mpr c)
  constructor
  · intro hv
    rw [packData_int hp]
    unfold structPack
    simp only [if_neg hx']
    rcases hv with hv | hv
    · rw [hv]
    · cases rt.ver
      · simp only [if_pos hv]
      · rfl
  · rintro ⟨hv, h8⟩
    have hb : packData rt (.num (.int x)) ty en? =
        .ok ((en?.getD d).order (leBytes f.size (x % (2 ^ (8 * f.size) : Nat)).toNat)) := by
      rw [packData_int hp]
      unfold structPack
      simp only [if_neg hx', hv, if_neg h8]
    generalize hbb : (en?.getD d).order (leBytes f.size (x % (2 ^ (8 * f.size) : Nat)).toNat) = b at hb
    have hl : b.length = f.size := by rw [← hbb]; simp
    obtain ⟨y, hy, hy1, hy2, hpy⟩ := structPack_structUnpack (v := rt.ver) (e := en?.getD d) hl
    have hyr := inRange_iff.mpr ⟨hy1, hy2⟩
    refine ⟨b, y, hb, hl, ?_, hyr, ?_, ?_⟩
    · rw [unpackData_int hu]
      simp only [selectBytes, hy]
      rfl
    · rintro rfl; exact hx hyr
    · have hpy' : (en?.getD d).order (leBytes f.size (y % (2 ^ (8 * f.size) : Nat)).toNat) = b := by
        unfold structPack at hpy
        simp only [if_pos (show f.lo ≤ y ∧ y < f.hi from ⟨hy1, hy2⟩)] at hpy
        exact Except.ok.inj hpy
      have h1 := congrArg (fun z => leVal ((en?.getD d).order z)) (hbb.trans hpy'.symm)
      simp only [order_order, leVal_leBytes, pow256] at h1
      have hpow : (0 : Int) < ((2 ^ (8 * f.size) : Nat) : Int) := by
        have := Nat.two_pow_pos (8 * f.size); omega
      have b1 := Int.emod_lt_of_pos x hpow
      have b2 := Int.emod_lt_of_pos y hpow
      have c1 := Int.emod_nonneg x (Int.ne_of_gt hpow)
      have c2 := Int.emod_nonneg y (Int.ne_of_gt hpow)
      rw [Nat.mod_eq_of_lt (by omega), Nat.mod_eq_of_lt (by omega)] at h1
      have h2 : x % ((2 ^ (8 * f.size) : Nat) : Int) = y % ((2 ^ (8 * f.size) : Nat) : Int) := by omega
      have h3 := Int.dvd_of_emod_eq_zero (Int.emod_eq_emod_iff_emod_sub_eq_zero.mp h2)
      simpa [Int.natCast_pow] using h3

example : ¬ InRange 1 false 256 ∧ ¬ InRange 2 true (-32769) := by decide

/-- **C02.** Every byte string of the type's width unpacks to an in-range integer that packs back to the same bytes;
any other length raises `DataUnpackingError`. -/
theorem C02_int_unpack_pack (rt : Runtime) (ty : MsgType) (n : Nat) (s : Bool) (d : Endian)
    (h : wireInt ty = some (n, s, d)) (en? : Option Endian) (b : Bytes) :
    (b.length = n → ∃ x, unpackData rt b ty none none en? = .ok (.num (.int x)) ∧ InRange n s x ∧
      packData rt (.num (.int x)) ty en? = .ok b) ∧
    (b.length ≠ n → unpackData rt b ty none none en? = .error .dataUnpacking) := by
  obtain ⟨f, hp, hu, rfl, rfl, hs⟩ := table_of_wireInt h
  constructor
  · intro hl
    obtain ⟨x, hx, h1, h2, hpx⟩ := structPack_structUnpack (v := rt.ver) (e := en?.getD d) hl
    refine ⟨x, ?_, inRange_iff.mpr ⟨h1, h2⟩, ?_⟩
    · rw [unpackData_int hu]
      simp only [selectBytes, hx]
      rfl
    · rw [packData_int hp, hpx]
  · intro hl
    rw [unpackData_int hu]
    simp only [selectBytes, structUnpack_wrong_length hl]
    rfl

example : wireInt .s16 = some (2, true, .little) ∧ ([0xff, 0x80] : Bytes).length = 2 := by decide

end Pyogp
