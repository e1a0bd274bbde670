import Verif.Proofs.Codec

/-! # On Python 2.7 a field that packs into its slot is representable -/

namespace Pyogp
open Spec

theorem single_of_packNum {en n b} (h : packNum en .f n = .ok b) : ∃ y, single n = some y := by
  obtain ⟨_, y, hy, _⟩ := unpackNum_packNum_f h
  exact ⟨y, hy⟩

theorem asDouble_of_packNum {en n b} (h : packNum en .d n = .ok b) : ∃ y, asDouble n = some y := by
  obtain ⟨_, y, hy, _⟩ := unpackNum_packNum_d h
  exact ⟨y, hy⟩

theorem tupleArg_ok {x ns} (h : tupleArg x = .ok ns) (hne : ns ≠ []) : x = .tuple ns := by
  unfold tupleArg at h
  split at h <;> cases h <;> first | rfl | exact absurd rfl hne

theorem field_converse (rt : Runtime) (hver : rt.ver = .v27) {v : TVar} (hv : WFVar v) {x : PyVal} {p : Bytes}
    (hp : packData rt x v.type = .ok p) (hf : fits v p) : ∃ y, receivedAs rt v x = some y := by
  obtain ⟨name, ty, size⟩ := v
  have hint : ∀ en f n s d, packIntVal rt.ver en f x = .ok p → wireInt ty = some (n, s, d) →
      f.size = n → f.signed = s → ∃ m i, x = .num m ∧ asInteger m = some i ∧ InRange n s i := by
    intro en f n s d h hw h1 h2
    unfold packIntVal at h
    have hpack : ∀ i, structPack .v27 en f i = .ok p → InRange n s i := by
      intro i h
      subst h1; subst h2
      rw [inRange_iff]
      unfold structPack at h
      simp only at h
      split at h
      · assumption
      · cases h
    rw [hver] at h
    split at h
    · rename_i i
      exact ⟨_, i, rfl, rfl, hpack i h⟩
    · rename_i x
      unfold packTruncated at h
      rw [truncF64_whole] at h
      cases hw : wholePart x with
      | none => rw [hw] at h; simp only at h; split at h <;> cases h
      | some i => rw [hw] at h; exact ⟨_, i, rfl, hw, hpack i h⟩
    · cases h
  have hstr : packString x = .ok p → ∃ s, textBytes x = some s ∧ p = s ++ [0] := packString_text
  simp only [packData] at hp
  cases ty <;> simp only [packerTable, Codec.pack, Option.getD_none] at hp
  case «variable» =>
    obtain ⟨s, h1, rfl⟩ := hstr hp
    simp only [fits, if_true, List.length_append, List.length_singleton] at hf
    simp only [receivedAs, h1, if_pos hf]
    split <;> exact ⟨_, rfl⟩
  case fixed =>
    obtain ⟨s, h1, rfl⟩ := hstr hp
    simp only [fits, List.length_append, List.length_singleton, reduceCtorEq, if_false] at hf
    simp only [receivedAs, h1, if_pos hf]
    exact ⟨_, rfl⟩
  case ipaddr =>
    obtain ⟨s, h1, rfl⟩ := hstr hp
    simp only [fits, List.length_append, List.length_singleton, reduceCtorEq, if_false] at hf
    simp only [receivedAs, h1, if_pos hf]
    exact ⟨_, rfl⟩
  case u8 | u16 | u32 | u64 | s8 | s16 | s32 | s64 | bool | ipport =>
    obtain ⟨m, i, rfl, hm, hi⟩ := hint _ _ _ _ _ hp rfl rfl rfl
    simp only [receivedAs, wireInt, hm]
    rw [if_pos hi]; exact ⟨_, rfl⟩
  case f32 =>
    split at hp
    · obtain ⟨y, hy⟩ := single_of_packNum hp
      exact ⟨_, by simp only [receivedAs, hy, Option.map_some]; rfl⟩
    · cases hp
  case f64 =>
    split at hp
    · obtain ⟨y, hy⟩ := asDouble_of_packNum hp
      exact ⟨_, by simp only [receivedAs, hy, Option.map_some]; rfl⟩
    · cases hp
  case uuid =>
    split at hp
    · exact ⟨_, rfl⟩
    · cases hp
  case vector3 =>
    have hsz : size = 12 := hv
    simp only [fits, reduceCtorEq, if_false, hsz] at hf
    have : ∃ a b c, nums x = some [a, b, c] ∧ packTuple .little .f [a, b, c] = .ok p := by
      split at hp
      · exact ⟨_, _, _, rfl, hp⟩
      · obtain ⟨ms, h1, h2⟩ := bind_ok.mp hp
        have hl := packTuple_length h2
        rw [hf] at hl
        have hl3 : ms.length = 3 := by simp only [FloatFmt.size] at hl; omega
        have hx := tupleArg_ok h1 (by intro e; rw [e] at hl3; cases hl3)
        match ms, hl3 with
        | [a, b, c], _ => exact ⟨a, b, c, by rw [hx]; rfl, h2⟩
    obtain ⟨a, b, c, h1, h2⟩ := this
    obtain ⟨_, x1, y1, z1, e1, e2, e3, _⟩ := packTuple3 h2
    exact ⟨_, by simp only [receivedAs, h1, e1, e2, e3, Option.bind_eq_bind, Option.bind_some]; rfl⟩
  case vector3d =>
    have hsz : size = 24 := hv
    simp only [fits, reduceCtorEq, if_false, hsz] at hf
    obtain ⟨ms, h1, h2⟩ := bind_ok.mp hp
    have hl := packTuple_length h2
    rw [hf] at hl
    have hl3 : ms.length = 3 := by simp only [FloatFmt.size] at hl; omega
    have hx := tupleArg_ok h1 (by intro e; rw [e] at hl3; cases hl3)
    match ms, hl3 with
    | [a, b, c], _ =>
      obtain ⟨b1, r1, h3, h4, _⟩ := packTuple_cons h2
      obtain ⟨b2, r2, h5, h6, _⟩ := packTuple_cons h4
      obtain ⟨b3, r3, h7, h8, _⟩ := packTuple_cons h6
      obtain ⟨y1, e1⟩ := asDouble_of_packNum h3
      obtain ⟨y2, e2⟩ := asDouble_of_packNum h5
      obtain ⟨y3, e3⟩ := asDouble_of_packNum h7
      exact ⟨_, by simp only [receivedAs, hx, e1, e2, e3, Option.bind_eq_bind, Option.bind_some]; rfl⟩
  case vector4 =>
    have hsz : size = 16 := hv
    simp only [fits, reduceCtorEq, if_false, hsz] at hf
    obtain ⟨ms, h1, h2⟩ := bind_ok.mp hp
    have hl := packTuple_length h2
    rw [hf] at hl
    have hl3 : ms.length = 4 := by simp only [FloatFmt.size] at hl; omega
    have hx := tupleArg_ok h1 (by intro e; rw [e] at hl3; cases hl3)
    match ms, hl3 with
    | [a, b, c, d], _ =>
      obtain ⟨b1, r1, h3, h4, _⟩ := packTuple_cons h2
      obtain ⟨b2, r2, h5, h6, _⟩ := packTuple_cons h4
      obtain ⟨b3, r3, h7, h8, _⟩ := packTuple_cons h6
      obtain ⟨b4, r4, h9, _, _⟩ := packTuple_cons h8
      obtain ⟨y1, e1⟩ := single_of_packNum h3
      obtain ⟨y2, e2⟩ := single_of_packNum h5
      obtain ⟨y3, e3⟩ := single_of_packNum h7
      obtain ⟨y4, e4⟩ := single_of_packNum h9
      exact ⟨_, by simp only [receivedAs, hx, e1, e2, e3, e4, Option.bind_eq_bind, Option.bind_some]; rfl⟩
  case quaternion =>
    have hq : ∀ (q : List Num) ms, packQuatToVec3 q = .ok ms → ∃ a b c d t, q = a :: b :: c :: d :: t ∧
        ms = if d.nonneg then [a, b, c] else [a.neg, b.neg, c.neg] := by
      intro q ms h
      simp only [packQuatToVec3, bind_ok] at h
      obtain ⟨d, hd, a, ha, b, hb, c, hc, h⟩ := h
      match q with
      | [] => simp [index] at hd
      | [_] => simp [index] at hd
      | [_, _] => simp [index] at hd
      | [_, _, _] => simp [index] at hd
      | q0 :: q1 :: q2 :: q3 :: t =>
        simp only [index, List.getElem?_cons_succ, List.getElem?_cons_zero, Except.ok.injEq] at hd ha hb hc
        subst hd ha hb hc
        refine ⟨_, _, _, _, _, rfl, ?_⟩
        split at h <;> rename_i hnn <;> cases h
        · rw [if_pos hnn]
        · rw [if_neg hnn]
    have fin : ∀ a b c d t, quatNums x = some (a, b, c, d) → packQuatToVec3 (a :: b :: c :: d :: t) >>= packTuple .little .f = .ok p →
        ∃ y, receivedAs rt ⟨name, .quaternion, size⟩ x = some y := by
      intro a b c d t h1 h2
      obtain ⟨ms, h3, h4⟩ := bind_ok.mp h2
      obtain ⟨a', b', c', d', t', e, rfl⟩ := hq _ _ h3
      simp only [List.cons.injEq] at e
      obtain ⟨rfl, rfl, rfl, rfl, rfl⟩ := e
      simp only [receivedAs, atLeastZero_eq, opposite_eq, h1]
      split at h4 <;> rename_i hnn
      · obtain ⟨_, x1, y1, z1, e1, e2, e3, _⟩ := packTuple3 h4
        exact ⟨_, by simp only [hnn, if_true, e1, e2, e3, Option.bind_eq_bind, Option.bind_some]; rfl⟩
      · obtain ⟨_, x1, y1, z1, e1, e2, e3, _⟩ := packTuple3 h4
        exact ⟨_, by simp only [hnn, Bool.false_eq_true, if_false, e1, e2, e3, Option.bind_eq_bind, Option.bind_some]; rfl⟩
    split at hp
    · exact fin _ _ _ _ [] rfl hp
    · rename_i q
      obtain ⟨ms, h3, h4⟩ := bind_ok.mp hp
      obtain ⟨a, b, c, d, t, rfl, _⟩ := hq _ _ h3
      exact fin a b c d t rfl hp
    · split at hp <;> cases hp
    · split at hp <;> cases hp
    all_goals cases hp

end Pyogp
