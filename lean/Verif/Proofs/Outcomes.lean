import Verif.Proofs.Parse

namespace Pyogp
open Spec

theorem structUnpack_total {d f raw} (h : raw.length = f.size) : ∃ x, structUnpack d f raw = .ok x := by
  obtain ⟨x, hx, _⟩ := structPack_structUnpack (v := .v27) (e := d) h
  exact ⟨x, hx⟩

theorem unpackF32_total {en} {b : Bytes} (h : b.length = 4) : ∃ x, unpackF32 en b = .ok x := ⟨_, by unfold unpackF32; rw [if_pos h]⟩
theorem unpackF64_total {en} {b : Bytes} (h : b.length = 8) : ∃ x, unpackF64 en b = .ok x := ⟨_, by unfold unpackF64; rw [if_pos h]⟩

theorem unpackNums_total {en tp} : ∀ {n : Nat} {b : Bytes}, b.length = n * tp.size → ∃ xs, unpackNums en tp n b = .ok xs
  | 0, b, h => by
    have : b = [] := List.eq_nil_of_length_eq_zero (by simpa using h)
    subst this; exact ⟨[], rfl⟩
  | n + 1, b, h => by
    have e : (n + 1) * tp.size = n * tp.size + tp.size := by rw [Nat.add_mul, Nat.one_mul]
    have h1 : (b.take tp.size).length = tp.size := by rw [List.length_take, h, e]; omega
    have h2 : (b.drop tp.size).length = n * tp.size := by rw [List.length_drop, h, e]; omega
    obtain ⟨xs, hxs⟩ := unpackNums_total (en := en) h2
    cases tp
    · obtain ⟨x, hx⟩ := unpackF32_total (en := en) h1
      exact ⟨.flt x :: xs, by simp only [unpackNums, unpackNum, hx, ok_bind, hxs]⟩
    · obtain ⟨x, hx⟩ := unpackF64_total (en := en) h1
      exact ⟨.flt x :: xs, by simp only [unpackNums, unpackNum, hx, ok_bind, hxs]⟩

/-- The right number of bytes of a field other than a variable-length one always decodes. -/
theorem unpackData_total (rt : Runtime) {v : TVar} (hv : WFVar v) {raw : Bytes}
    (hl : raw.length = v.size) : ∃ x, unpackData rt raw v.type = .ok x := by
  have key : ∀ (en : Endian) (c : Codec) x, unpackerTable v.type = (en, c) → c.unpack rt en raw = .ok x →
      unpackData rt raw v.type = .ok x := by
    intro en c x h1 h2
    unfold unpackData
    rw [h1]
    simp only [selectBytes, Option.getD_none, h2, wrapStructError]
  have hw : ∀ n, wireWidth v.type = some n → raw.length = n := by
    intro n hn
    unfold WFVar at hv
    rw [hn] at hv
    rw [hl]; exact hv
  have hint : ∀ en f, unpackerTable v.type = (en, .int f) → wireWidth v.type = some f.size →
      ∃ x, unpackData rt raw v.type = .ok x := by
    intro en f h1 h2
    obtain ⟨i, hi⟩ := structUnpack_total (d := en) (f := f) (hw _ h2)
    exact ⟨_, key _ _ _ h1 (by simp only [Codec.unpack, hi, ok_bind]; rfl)⟩
  cases hty : v.type
  case fixed => exact ⟨.str raw, rfl⟩
  case «variable» => exact ⟨.str raw, rfl⟩
  case ipaddr => exact ⟨.str raw, rfl⟩
  case u8 => rw [← hty]; exact hint .big .B (by rw [hty]; rfl) (by rw [hty]; rfl)
  case s8 => rw [← hty]; exact hint .big .b (by rw [hty]; rfl) (by rw [hty]; rfl)
  case bool => rw [← hty]; exact hint .big .B (by rw [hty]; rfl) (by rw [hty]; rfl)
  case ipport => rw [← hty]; exact hint .big .H (by rw [hty]; rfl) (by rw [hty]; rfl)
  case u16 => rw [← hty]; exact hint .little .H (by rw [hty]; rfl) (by rw [hty]; rfl)
  case s16 => rw [← hty]; exact hint .little .h (by rw [hty]; rfl) (by rw [hty]; rfl)
  case u32 => rw [← hty]; exact hint .little .I (by rw [hty]; rfl) (by rw [hty]; rfl)
  case s32 => rw [← hty]; exact hint .little .i (by rw [hty]; rfl) (by rw [hty]; rfl)
  case u64 => rw [← hty]; exact hint .little .Q (by rw [hty]; rfl) (by rw [hty]; rfl)
  case s64 => rw [← hty]; exact hint .little .q (by rw [hty]; rfl) (by rw [hty]; rfl)
  case f32 =>
    obtain ⟨x, hx⟩ := unpackF32_total (en := .little) (hw 4 (by rw [hty]; rfl))
    rw [← hty]
    exact ⟨_, key .little (.flt .f) _ (by rw [hty]; rfl) (by simp only [Codec.unpack, unpackNum, hx, ok_bind]; rfl)⟩
  case f64 =>
    obtain ⟨x, hx⟩ := unpackF64_total (en := .little) (hw 8 (by rw [hty]; rfl))
    rw [← hty]
    exact ⟨_, key .little (.flt .d) _ (by rw [hty]; rfl) (by simp only [Codec.unpack, unpackNum, hx, ok_bind]; rfl)⟩
  case vector3d =>
    have h24 := hw 24 (by rw [hty]; rfl)
    obtain ⟨xs, hx⟩ := unpackNums_total (en := .little) (tp := .d) (n := 3) (b := raw) (by rw [h24]; rfl)
    rw [← hty]
    exact ⟨_, key .little .vector3d _ (by rw [hty]; rfl) (by
      simp only [Codec.unpack, unpackTuple, h24, show 24 / FloatFmt.d.size = 3 from rfl, hx, ok_bind]; rfl)⟩
  case vector4 =>
    have h16 := hw 16 (by rw [hty]; rfl)
    obtain ⟨xs, hx⟩ := unpackNums_total (en := .little) (tp := .f) (n := 4) (b := raw) (by rw [h16]; rfl)
    rw [← hty]
    exact ⟨_, key .little .vector4 _ (by rw [hty]; rfl) (by
      simp only [Codec.unpack, unpackTuple, h16, show 16 / FloatFmt.f.size = 4 from rfl, hx, ok_bind]; rfl)⟩
  case vector3 =>
    have h12 := hw 12 (by rw [hty]; rfl)
    obtain ⟨x, hx⟩ := unpackF32_total (en := .little) (b := slice raw 0 (0 + 4)) (by simp [slice]; omega)
    obtain ⟨y, hy⟩ := unpackF32_total (en := .little) (b := slice raw (0 + 4) (0 + 8)) (by simp [slice]; omega)
    obtain ⟨z, hz⟩ := unpackF32_total (en := .little) (b := slice raw (0 + 8) (0 + 12)) (by simp [slice]; omega)
    rw [← hty]
    exact ⟨_, key .little .vector3 _ (by rw [hty]; rfl) (by
      simp only [Codec.unpack, vector3OfBytes, hx, hy, hz, ok_bind]; rfl)⟩
  case quaternion =>
    have h12 := hw 12 (by rw [hty]; rfl)
    obtain ⟨x, hx⟩ := unpackF32_total (en := .little) (b := slice raw 0 (0 + 4)) (by simp [slice]; omega)
    obtain ⟨y, hy⟩ := unpackF32_total (en := .little) (b := slice raw (0 + 4) (0 + 8)) (by simp [slice]; omega)
    obtain ⟨z, hz⟩ := unpackF32_total (en := .little) (b := slice raw (0 + 8) (0 + 12)) (by simp [slice]; omega)
    have hw4 : unpackF32 .little (slice raw (0 + 12) (0 + 16)) = .error .structError := by
      unfold unpackF32; rw [if_neg (by simp [slice]; omega)]
    rw [← hty]
    exact ⟨_, key .little .quat _ (by rw [hty]; rfl) (by
      simp only [Codec.unpack, quaternionOfBytes, hx, hy, hz, ok_bind, hw4]; rfl)⟩
  case uuid =>
    have h16 := hw 16 (by rw [hty]; rfl)
    have : slice raw 0 16 = raw := by simp [slice, List.take_of_length_le, h16]
    rw [← hty]
    exact ⟨_, key .big .uuid _ (by rw [hty]; rfl) (by
      simp only [Codec.unpack, this, uuidOfBytes, if_pos h16, ok_bind]; rfl)⟩

/-- The ways in which decoding a body may stop. -/
def DeclaredStop (s : Stop) : Prop := s = .retNone ∨ s = .exc .dataUnpacking ∨ s = .exc .messageDeserialization

theorem liftPy_error {α : Type} {x : Py α} {s : Stop} (h : liftPy x = .error s) : ∃ e, x = .error e ∧ s = .exc e := by
  cases x with
  | ok a => cases h
  | error e => cases h; exact ⟨e, rfl, rfl⟩

theorem declared_int {rt : Runtime} {data : Bytes} {ty : MsgType} {pos n s d en? st} (hw : wireInt ty = some (n, s, d))
    (h : liftPy (unpackInt rt data ty pos en?) = .error st) : DeclaredStop st := by
  obtain ⟨e, h1, rfl⟩ := liftPy_error h
  rw [unpackInt_error hw h1]
  exact .inr (.inl rfl)

theorem decodeSize_stop {rt data v pos s} (h : decodeSize rt data v pos = .error s) : DeclaredStop s := by
  unfold decodeSize at h
  split at h
  · split at h
    · cases h; exact .inl rfl
    · split at h
      · simp only [bind_error] at h
        rcases h with h | ⟨_, _, h⟩
        · exact declared_int (ty := .u8) (by rfl) h
        · cases h
      · split at h
        · simp only [bind_error] at h
          rcases h with h | ⟨_, _, h⟩
          · exact declared_int (ty := .u16) (by rfl) h
          · cases h
        · split at h
          · simp only [bind_error] at h
            rcases h with h | ⟨_, _, h⟩
            · exact declared_int (ty := .u32) (by rfl) h
            · cases h
          · cases h; exact .inr (.inr rfl)
  · cases h

theorem decodeVar_stop {rt data v pos s} (hv : WFVar v) (h : decodeVar rt data v pos = .error s) : DeclaredStop s := by
  simp only [decodeVar, bind_error] at h
  rcases h with h | ⟨⟨n, p⟩, hsz, h⟩
  · exact decodeSize_stop h
  · split at h
    · cases h; exact .inl rfl
    · rename_i hfit
      simp only [Nat.not_lt] at hfit
      simp only [bind_error] at h
      rcases h with h | ⟨_, _, h⟩
      · exfalso
        obtain ⟨raw, post, hd, hl⟩ := drop_split hfit
        obtain ⟨e, h, _⟩ := liftPy_error h
        rw [← hl, unpackData_at rt hd] at h
        by_cases hvar : v.type = .variable
        · rw [hvar, unpackData_variable] at h; cases h
        · have : n = v.size := by
            unfold decodeSize at hsz
            rw [if_neg hvar] at hsz
            cases hsz; rfl
          obtain ⟨x, hx⟩ := unpackData_total rt hv (raw := raw) (by rw [hl, this])
          rw [hx] at h; cases h
      · cases h

theorem decodeVars_stop {rt data} : ∀ {vs : List TVar} {pos blk s}, (∀ v ∈ vs, WFVar v) →
    decodeVars rt data vs pos blk = .error s → DeclaredStop s
  | [], pos, blk, s, _, h => by cases h
  | v :: vs, pos, blk, s, hw, h => by
    simp only [decodeVars, bind_error] at h
    rcases h with h | ⟨r, _, h⟩
    · exact decodeVar_stop (hw v List.mem_cons_self) h
    · exact decodeVars_stop (fun v hv => hw v (List.mem_cons_of_mem _ hv)) h

theorem decodeInstances_stop {rt data tb} (hw : ∀ v ∈ tb.vars, WFVar v) : ∀ {n i pos blocks s},
    decodeInstances rt data tb n i pos blocks = .error s → DeclaredStop s
  | 0, i, pos, blocks, s, h => by cases h
  | n + 1, i, pos, blocks, s, h => by
    simp only [decodeInstances, bind_error] at h
    rcases h with h | ⟨r, _, h⟩
    · exact decodeVars_stop hw h
    · exact decodeInstances_stop hw h

theorem decodeCount_stop {rt data tb pos s} (h : decodeCount rt data tb pos = .error s) : DeclaredStop s := by
  unfold decodeCount at h
  split at h
  · cases h
  · cases h
  · simp only [bind_error] at h
    rcases h with h | ⟨_, _, h⟩
    · exact declared_int (ty := .u8) (by rfl) h
    · cases h
  · cases h; exact .inl rfl

theorem decodeBlocks_stop {rt data} : ∀ {tbs : List TBlock} {pos blocks s}, (∀ tb ∈ tbs, ∀ v ∈ tb.vars, WFVar v) →
    decodeBlocks rt data tbs pos blocks = .error s → DeclaredStop s
  | [], pos, blocks, s, _, h => by cases h
  | tb :: tbs, pos, blocks, s, hw, h => by
    simp only [decodeBlocks, bind_error] at h
    rcases h with h | ⟨c, _, h | ⟨r, _, h⟩⟩
    · exact decodeCount_stop h
    · exact decodeInstances_stop (hw tb List.mem_cons_self) h
    · exact decodeBlocks_stop (fun tb h => hw tb (List.mem_cons_of_mem _ h)) h

theorem decodeAcks_stop {rt ackData} : ∀ {n pos m s}, decodeAcks rt ackData n pos m = .error s → DeclaredStop s
  | 0, pos, m, s, h => by cases h
  | n + 1, pos, m, s, h => by
    simp only [decodeAcks, bind_error] at h
    rcases h with h | ⟨_, _, h⟩
    · exact declared_int (ty := .u32) (by rfl) h
    · exact decodeAcks_stop h

theorem decodeAckPart_stop {rt data m s} (h : decodeAckPart rt data m = .error s) : DeclaredStop s := by
  unfold decodeAckPart at h
  split at h
  · simp only [bind_error] at h
    rcases h with h | ⟨_, _, h⟩
    · exact declared_int (ty := .u8) (by rfl) h
    · exact decodeAcks_stop h
  · cases h

theorem index_error {α : Type} {l : List α} {i e} (h : index l i = .error e) : e = .indexError ∧ l.length ≤ i := by
  unfold index at h
  split at h
  · cases h
  · rename_i hn
    cases h
    exact ⟨rfl, by simpa using hn⟩

theorem decodeData_stop {rt t data s} (hw : ∀ tb ∈ t.blocks, ∀ v ∈ tb.vars, WFVar v) (hne : data ≠ [])
    (h : decodeData rt (some t) data = .error s) : DeclaredStop s := by
  simp only [decodeData, ok_bind, bind_error] at h
  rcases h with h | ⟨_, _, h | ⟨_, _, h | ⟨_, _, h | ⟨_, _, h | ⟨_, _, h⟩⟩⟩⟩⟩
  · exfalso
    obtain ⟨e, h1, _⟩ := liftPy_error h
    have := (index_error h1).2
    exact hne (List.eq_nil_of_length_eq_zero (by omega))
  · exact declared_int (ty := .u32) (by rfl) h
  · exact decodeAckPart_stop h
  · exact declared_int (ty := .u8) (by rfl) h
  · exact decodeBlocks_stop hw h
  · split at h
    · cases h; exact .inr (.inr rfl)
    · cases h

theorem decodeFrequency_error {h e} (he : decodeFrequency h = .error e) : e = .indexError := by
  unfold decodeFrequency at he
  simp only [bind_error] at he
  rcases he with he | ⟨a, _, he⟩
  · exact (index_error he).1
  · split at he
    · simp only [bind_error] at he
      rcases he with he | ⟨a, _, he⟩
      · exact (index_error he).1
      · split at he
        · simp only [bind_error] at he
          rcases he with he | ⟨a, _, he⟩
          · exact (index_error he).1
          · split at he <;> cases he
        · cases he
    · cases he

theorem structUnpack_error {d f raw e} (h : structUnpack d f raw = .error e) : e = .structError := by
  unfold structUnpack at h
  split at h
  · simp only at h
    split at h <;> cases h
  · cases h; rfl

theorem decodeNum_error {h e} (he : decodeNum h = .error e) : e = .indexError ∨ e = .structError := by
  unfold decodeNum at he
  simp only [bind_error] at he
  rcases he with he | ⟨a, _, he⟩
  · exact .inl (decodeFrequency_error he)
  · split at he <;> exact .inr (structUnpack_error he)

theorem decodeHeader_error {dict h e} (he : decodeHeader dict h = .error e) : e = .indexError ∨ e = .structError := by
  unfold decodeHeader at he
  simp only [bind_error] at he
  rcases he with he | ⟨a, _, he | ⟨_, _, he⟩⟩
  · exact .inl (decodeFrequency_error he)
  · exact decodeNum_error he
  · cases he

end Pyogp
