import Verif.Proofs.Transmit
import Verif.Props.Fields
import Verif.Spec.Parse

namespace Pyogp
open Spec

theorem littleEndian_eq : ∀ b : Bytes, littleEndian b = leVal b
  | [] => rfl
  | b :: bs => by simp only [littleEndian, leVal, littleEndian_eq bs]

theorem slice_eq {α : Type} {l : List α} {i n : Nat} (h : i + n ≤ l.length) :
    ∃ raw post, l.drop i = raw ++ post ∧ raw.length = n ∧ slice l i (i + n) = raw := by
  refine ⟨(l.drop i).take n, (l.drop i).drop n, (List.take_append_drop n _).symm, ?_, ?_⟩
  · simp; omega
  · simp [slice]

theorem slice_of_drop {α : Type} {l raw post : List α} {i : Nat} (h : l.drop i = raw ++ post) :
    slice l i (i + raw.length) = raw := by
  simp [slice, h]

theorem unpackInt_inv {rt : Runtime} {data : Bytes} {ty : MsgType} {pos n s d x} (hw : wireInt ty = some (n, s, d))
    (h : unpackInt rt data ty pos = .ok x) :
    ∃ raw post f, data.drop pos = raw ++ post ∧ raw.length = n ∧ unpackerTable ty = (d, .int f) ∧ structUnpack d f raw = .ok x := by
  obtain ⟨f, _, hu, hsz, _, hs⟩ := table_of_wireInt hw
  simp only [unpackInt, bind_ok] at h
  obtain ⟨v, hv, h⟩ := h
  rw [unpackData_int hu] at hv
  simp only [Option.getD_none, selectBytes, hs] at hv
  cases hst : structUnpack d f (slice data pos (pos + n)) with
  | error e =>
    rw [hst] at hv
    exfalso
    simp only [error_bind] at hv
    cases e <;> cases hv
  | ok i =>
    rw [hst] at hv
    simp only [ok_bind, wrapStructError, Except.ok.injEq] at hv
    subst hv
    simp only [Except.ok.injEq] at h
    subst h
    have hl : (slice data pos (pos + n)).length = n := by
      rcases Decidable.em ((slice data pos (pos + n)).length = n) with hc | hc
      · exact hc
      · rw [structUnpack_wrong_length (by rw [hsz]; exact hc)] at hst
        cases hst
    refine ⟨slice data pos (pos + n), (data.drop pos).drop n, f, ?_, hl, hu, hst⟩
    simp only [slice, Nat.add_sub_cancel_left]
    exact (List.take_append_drop n _).symm

/-- Reading an integer that is there. -/
theorem unpackInt_at {rt : Runtime} {data raw post : Bytes} {ty : MsgType} {pos n s d f x} (hw : wireInt ty = some (n, s, d))
    (hu : unpackerTable ty = (d, .int f)) (hd : data.drop pos = raw ++ post) (hl : raw.length = n)
    (hx : structUnpack d f raw = .ok x) : unpackInt rt data ty pos = .ok x := by
  obtain ⟨f', _, hu', hsz, _, hs⟩ := table_of_wireInt hw
  rw [hu] at hu'; cases hu'
  have hsel : selectBytes data ty (some pos) none = raw := by
    simp only [selectBytes, hs]; rw [← hl]; exact slice_of_drop hd
  simp only [unpackInt, unpackData_int hu, Option.getD_none, hsel, hx]
  rfl

theorem unpackInt_error {rt : Runtime} {data : Bytes} {ty : MsgType} {pos n s d e en?} (hw : wireInt ty = some (n, s, d))
    (h : unpackInt rt data ty pos en? = .error e) : e = .dataUnpacking := by
  obtain ⟨f, _, hu, hsz, _, hs⟩ := table_of_wireInt hw
  simp only [unpackInt] at h
  rw [unpackData_int hu] at h
  cases hst : structUnpack (en?.getD d) f (selectBytes data ty (some pos) none) with
  | error e' =>
    rw [hst] at h
    have : e' = .structError := by
      unfold structUnpack at hst
      split at hst
      · simp only at hst
        split at hst <;> cases hst
      · cases hst; rfl
    subst this
    simp only [error_bind, wrapStructError] at h
    cases h; rfl
  | ok i =>
    rw [hst] at h
    simp only [ok_bind, wrapStructError] at h
    cases h

theorem liftPy_ok {α : Type} {x : Py α} {a : α} : liftPy x = .ok a ↔ x = .ok a := by
  cases x <;> simp [liftPy]

theorem structUnpack_unsigned {d f raw x} (hs : f.signed = false) (h : structUnpack d f raw = .ok x) :
    x = (leVal (d.order raw) : Int) ∧ raw.length = f.size := by
  unfold structUnpack at h
  split at h
  · rename_i hl
    simp only [hs, Bool.false_eq_true, false_and, if_false, Except.ok.injEq] at h
    exact ⟨h.symm, hl⟩
  · cases h

/-- The length of a variable-length field, and where its content starts. -/
theorem decodeSize_inv {rt : Runtime} {data : Bytes} {v : TVar} {pos n p : Nat} (hv : v.type = .variable)
    (h : decodeSize rt data v pos = .ok (n, p)) :
    ∃ len post, data.drop pos = len ++ post ∧ len.length = v.size ∧ littleEndian len = n ∧ p = pos + v.size := by
  unfold decodeSize at h
  rw [if_pos hv] at h
  split at h
  · cases h
  · split at h
    · rename_i hsz
      simp only [bind_ok, liftPy_ok] at h
      obtain ⟨x, hx, h⟩ := h
      obtain ⟨raw, post, f, hd, hl, hu, hst⟩ := unpackInt_inv (ty := .u8) (by rfl) hx
      cases hu
      obtain ⟨rfl, _⟩ := structUnpack_unsigned rfl hst
      simp only [Int.toNat_natCast, Except.ok.injEq, Prod.mk.injEq] at h
      refine ⟨raw, post, hd, by rw [hl, hsz], ?_, h.2.symm⟩
      rw [littleEndian_eq, ← h.1]
      obtain ⟨b, rfl⟩ : ∃ b, raw = [b] := List.length_eq_one_iff.mp hl
      rfl
    · split at h
      · rename_i hsz
        simp only [bind_ok, liftPy_ok] at h
        obtain ⟨x, hx, h⟩ := h
        obtain ⟨raw, post, f, hd, hl, hu, hst⟩ := unpackInt_inv (ty := .u16) (by rfl) hx
        cases hu
        obtain ⟨rfl, _⟩ := structUnpack_unsigned rfl hst
        simp only [Int.toNat_natCast, Except.ok.injEq, Prod.mk.injEq] at h
        refine ⟨raw, post, hd, by rw [hl, hsz], ?_, h.2.symm⟩
        rw [littleEndian_eq, ← h.1]; rfl
      · split at h
        · rename_i hsz
          simp only [bind_ok, liftPy_ok] at h
          obtain ⟨x, hx, h⟩ := h
          obtain ⟨raw, post, f, hd, hl, hu, hst⟩ := unpackInt_inv (ty := .u32) (by rfl) hx
          cases hu
          obtain ⟨rfl, _⟩ := structUnpack_unsigned rfl hst
          simp only [Int.toNat_natCast, Except.ok.injEq, Prod.mk.injEq] at h
          refine ⟨raw, post, hd, by rw [hl, hsz], ?_, h.2.symm⟩
          rw [littleEndian_eq, ← h.1]; rfl
        · cases h

/-- `n` bytes, `n > 0`, that lie in the datagram. -/
theorem drop_split {α : Type} {l : List α} {i n : Nat} (h : i + n ≤ l.length) :
    ∃ raw post, l.drop i = raw ++ post ∧ raw.length = n :=
  ⟨(l.drop i).take n, (l.drop i).drop n, (List.take_append_drop n _).symm, by simp; omega⟩

theorem unpackData_at (rt : Runtime) {data raw post : Bytes} {ty : MsgType} {pos : Nat} (hd : data.drop pos = raw ++ post) :
    unpackData rt data ty (some pos) (some raw.length) = unpackData rt raw ty := by
  unfold unpackData
  simp only [selectBytes]
  rw [slice_of_drop hd]

theorem unpackData_variable (rt : Runtime) (raw : Bytes) : unpackData rt raw .variable = .ok (.str raw) := rfl

theorem decodeVar_inv {rt : Runtime} {data : Bytes} {v : TVar} {pos pos' : Nat} {d : VarData}
    (h : decodeVar rt data v pos = .ok (d, pos')) :
    ∃ raw post, data.drop pos = raw ++ post ∧ pos' = pos + raw.length ∧ d.name = v.name ∧ d.varType = some v.type ∧
      FieldBytes rt v raw d.data := by
  simp only [decodeVar, bind_ok] at h
  obtain ⟨⟨n, p⟩, hsz, h⟩ := h
  split at h
  · cases h
  · rename_i hfit
    simp only [Nat.not_lt] at hfit
    simp only [bind_ok, liftPy_ok, Except.ok.injEq, Prod.mk.injEq] at h
    obtain ⟨x, hx, rfl, rfl⟩ := h
    by_cases hv : v.type = .variable
    · obtain ⟨len, post, hd, hl, hn, rfl⟩ := decodeSize_inv hv hsz
      have hd2 : data.drop (pos + v.size) = post := by
        rw [← List.drop_drop, hd, ← hl, List.drop_left]
      obtain ⟨content, post', hd3, hl3⟩ := drop_split hfit
      have : post = content ++ post' := by rw [← hd2, hd3]
      subst this
      refine ⟨len ++ content, post', by rw [hd, List.append_assoc], ?_, rfl, rfl, ?_⟩
      · simp only [List.length_append, hl, hl3]; omega
      · unfold FieldBytes
        rw [if_pos hv]
        refine ⟨len, content, rfl, hl, by rw [hn, hl3], ?_⟩
        rw [← hl3, unpackData_at rt hd3, hv, unpackData_variable] at hx
        cases hx
        simp only [normaliseVar, hv, true_and]
        by_cases hdn : v.name = "Data"
        · simp [hdn]
        · simp only [hdn, ne_eq, not_false_eq_true, if_true, if_false]
          exact ⟨_, rstrip0_isStripped content, rfl⟩
    · have : n = v.size ∧ p = pos := by
        unfold decodeSize at hsz
        rw [if_neg hv] at hsz
        cases hsz; exact ⟨rfl, rfl⟩
      obtain ⟨rfl, rfl⟩ := this
      obtain ⟨raw, post, hd, hl⟩ := drop_split hfit
      refine ⟨raw, post, hd, by rw [hl], rfl, rfl, ?_⟩
      unfold FieldBytes
      rw [if_neg hv]
      refine ⟨hl, ?_⟩
      rw [← hl, unpackData_at rt hd] at hx
      simp only [normaliseVar, hv, false_and, if_false]
      exact hx

theorem decodeVars_inv {rt : Runtime} {data : Bytes} : ∀ {vs : List TVar} {pos pos' : Nat} {blk b : BlockData},
    decodeVars rt data vs pos blk = .ok (b, pos') →
    ∃ raw post ds, data.drop pos = raw ++ post ∧ pos' = pos + raw.length ∧ VarsBytes rt vs raw ds ∧
      b = ds.foldl BlockData.addVariable blk
  | [], pos, pos', blk, b, h => by
    simp only [decodeVars, Except.ok.injEq, Prod.mk.injEq] at h
    obtain ⟨rfl, rfl⟩ := h
    exact ⟨[], data.drop pos, [], rfl, rfl, ⟨rfl, rfl⟩, rfl⟩
  | v :: vs, pos, pos', blk, b, h => by
    simp only [decodeVars, bind_ok] at h
    obtain ⟨⟨d, p⟩, hd, h⟩ := h
    obtain ⟨r₁, post₁, h1, rfl, hn, ht, hf⟩ := decodeVar_inv hd
    obtain ⟨r₂, post₂, ds, h2, rfl, hv, rfl⟩ := decodeVars_inv h
    rw [← List.drop_drop, h1, List.drop_left] at h2
    subst h2
    refine ⟨r₁ ++ r₂, post₂, d :: ds, by rw [h1, List.append_assoc], by simp; omega, ?_, rfl⟩
    exact ⟨r₁, r₂, d, ds, rfl, rfl, hn, ht, hf, hv⟩

theorem decodeInstances_inv {rt : Runtime} {data : Bytes} {tb : TBlock} :
    ∀ {n i pos pos' : Nat} {blocks out : Dict String (List BlockData)},
    decodeInstances rt data tb n i pos blocks = .ok (out, pos') →
    ∃ raw post bs, data.drop pos = raw ++ post ∧ pos' = pos + raw.length ∧ bs.length = n ∧ InstancesBytes rt tb i raw bs ∧
      out = bs.foldl addBlock blocks
  | 0, i, pos, pos', blocks, out, h => by
    simp only [decodeInstances, Except.ok.injEq, Prod.mk.injEq] at h
    obtain ⟨rfl, rfl⟩ := h
    exact ⟨[], data.drop pos, [], rfl, rfl, rfl, rfl, rfl⟩
  | n + 1, i, pos, pos', blocks, out, h => by
    simp only [decodeInstances, bind_ok] at h
    obtain ⟨⟨b, p⟩, hb, h⟩ := h
    obtain ⟨r₁, post₁, ds, h1, rfl, hv, rfl⟩ := decodeVars_inv hb
    obtain ⟨r₂, post₂, bs, h2, rfl, hl, hi, rfl⟩ := decodeInstances_inv h
    rw [← List.drop_drop, h1, List.drop_left] at h2
    subst h2
    refine ⟨r₁ ++ r₂, post₂, _ :: bs, by rw [h1, List.append_assoc], by simp; omega, by simp [hl], ?_, rfl⟩
    exact ⟨r₁, r₂, ds, rfl, hv, rfl, hi⟩

theorem decodeCount_inv {rt : Runtime} {data : Bytes} {tb : TBlock} {pos n pos' : Nat}
    (h : decodeCount rt data tb pos = .ok (n, pos')) :
    ∃ cnt post, data.drop pos = cnt ++ post ∧ pos' = pos + cnt.length ∧ CountOk tb n ∧
      cnt = (if tb.blockType = .variable then [UInt8.ofNat n] else []) := by
  unfold decodeCount at h
  split at h
  · rename_i ht
    simp only [Except.ok.injEq, Prod.mk.injEq] at h
    obtain ⟨rfl, rfl⟩ := h
    exact ⟨[], data.drop pos, rfl, rfl, by simp [CountOk, ht], by simp [ht]⟩
  · rename_i ht
    simp only [Except.ok.injEq, Prod.mk.injEq] at h
    obtain ⟨rfl, rfl⟩ := h
    exact ⟨[], data.drop pos, rfl, rfl, by simp [CountOk, ht], by simp [ht]⟩
  · rename_i ht
    simp only [bind_ok, liftPy_ok] at h
    obtain ⟨x, hx, h⟩ := h
    obtain ⟨raw, post, f, hd, hl, hu, hst⟩ := unpackInt_inv (ty := .u8) (by rfl) hx
    cases hu
    obtain ⟨rfl, _⟩ := structUnpack_unsigned rfl hst
    simp only [Int.toNat_natCast, Except.ok.injEq, Prod.mk.injEq] at h
    obtain ⟨b, rfl⟩ : ∃ b, raw = [b] := List.length_eq_one_iff.mp hl
    obtain ⟨rfl, rfl⟩ := h
    have hb : leVal (Endian.big.order [b]) = b.toNat := by simp [Endian.order, leVal]
    refine ⟨[b], post, hd, rfl, ?_, ?_⟩
    · rw [hb]
      have := b.toNat_lt
      simp only [CountOk, ht]; omega
    · rw [if_pos ht, hb]; simp
  · cases h

theorem decodeBlocks_inv {rt : Runtime} {data : Bytes} : ∀ {tbs : List TBlock} {pos pos' : Nat}
    {blocks out : Dict String (List BlockData)}, decodeBlocks rt data tbs pos blocks = .ok (out, pos') →
    ∃ raw post bss, data.drop pos = raw ++ post ∧ pos' = pos + raw.length ∧ BlocksBytes rt tbs raw bss ∧
      out = bss.flatten.foldl addBlock blocks
  | [], pos, pos', blocks, out, h => by
    simp only [decodeBlocks, Except.ok.injEq, Prod.mk.injEq] at h
    obtain ⟨rfl, rfl⟩ := h
    exact ⟨[], data.drop pos, [], rfl, rfl, ⟨rfl, rfl⟩, rfl⟩
  | tb :: tbs, pos, pos', blocks, out, h => by
    simp only [decodeBlocks, bind_ok] at h
    obtain ⟨⟨n, p⟩, hc, ⟨bl, p2⟩, hi, h⟩ := h
    obtain ⟨cnt, post₀, h0, rfl, hco, hcnt⟩ := decodeCount_inv hc
    obtain ⟨r₁, post₁, bs, h1, rfl, hl, hib, rfl⟩ := decodeInstances_inv hi
    obtain ⟨r₂, post₂, bss, h2, rfl, hb, rfl⟩ := decodeBlocks_inv h
    simp only at h1 h2
    rw [← List.drop_drop, h0, List.drop_left] at h1
    subst h1
    rw [← List.drop_drop, ← List.drop_drop, h0, List.drop_left, List.drop_left] at h2
    subst h2
    subst hl
    refine ⟨cnt ++ r₁ ++ r₂, post₂, bs :: bss, by rw [h0]; simp, by simp; omega, ?_, by simp⟩
    exact ⟨cnt, r₁, r₂, bs, bss, rfl, rfl, hco, hcnt, hib, hb⟩

/-! ## Completeness: bytes of that form are read, whatever surrounds them -/

theorem structUnpack_unsigned_ok {d f raw} (hs : f.signed = false) (hl : raw.length = f.size) :
    structUnpack d f raw = .ok (leVal (d.order raw) : Int) := by
  unfold structUnpack
  rw [if_pos hl]
  simp [hs]

theorem decodeVar_at {rt : Runtime} {data raw post : Bytes} {v : TVar} (hv : WFVar v) {pos : Nat} {x : PyVal}
    (hd : data.drop pos = raw ++ post) (h : FieldBytes rt v raw x) :
    decodeVar rt data v pos = .ok ({ name := v.name, data := x, varType := some v.type }, pos + raw.length) := by
  have hlen : raw ≠ [] → pos + raw.length ≤ data.length := by
    intro hne
    have := congrArg List.length hd
    have : 0 < raw.length := List.length_pos_iff.mpr hne
    simp at *; omega
  unfold FieldBytes at h
  split at h
  · rename_i ht
    obtain ⟨len, content, rfl, hl, hn, hx⟩ := h
    have hs : v.size = 1 ∨ v.size = 2 ∨ v.size = 4 := by
      unfold WFVar at hv; rw [ht] at hv; simpa [wireWidth] using hv
    have hne : len ++ content ≠ [] := by
      intro hc
      have := congrArg List.length hc
      simp only [List.length_append, hl, List.length_nil] at this
      omega
    have hle := hlen hne
    simp only [List.length_append, hl] at hle
    rw [List.append_assoc] at hd
    have hsz : decodeSize rt data v pos = .ok (content.length, pos + v.size) := by
      unfold decodeSize
      rw [if_pos ht, if_neg (by omega)]
      rw [littleEndian_eq] at hn
      rcases hs with hs | hs | hs
      · rw [if_pos hs]
        have hu := unpackInt_at (rt := rt) (ty := .u8) (by rfl) (by rfl) hd (by rw [hl, hs])
          (structUnpack_unsigned_ok (d := .big) (f := .B) rfl (by rw [hl, hs]; rfl))
        rw [hu]
        simp only [liftPy, ok_bind, Int.toNat_natCast]
        obtain ⟨b, rfl⟩ : ∃ b, len = [b] := List.length_eq_one_iff.mp (by rw [hl, hs])
        simp only [Endian.order, List.reverse_singleton, hn]
      · rw [if_neg (by omega), if_pos hs]
        have hu := unpackInt_at (rt := rt) (ty := .u16) (by rfl) (by rfl) hd (by rw [hl, hs])
          (structUnpack_unsigned_ok (d := .little) (f := .H) rfl (by rw [hl, hs]; rfl))
        rw [hu]
        simp only [liftPy, ok_bind, Int.toNat_natCast, Endian.order, hn]
      · rw [if_neg (by omega), if_neg (by omega), if_pos hs]
        have hu := unpackInt_at (rt := rt) (ty := .u32) (by rfl) (by rfl) hd (by rw [hl, hs])
          (structUnpack_unsigned_ok (d := .little) (f := .I) rfl (by rw [hl, hs]; rfl))
        rw [hu]
        simp only [liftPy, ok_bind, Int.toNat_natCast, Endian.order, hn]
    have hd2 : data.drop (pos + v.size) = content ++ post := by
      rw [← List.drop_drop, hd, ← hl, List.drop_left]
    simp only [decodeVar, hsz, ok_bind]
    rw [if_neg (by omega), unpackData_at rt hd2, ht, unpackData_variable]
    simp only [liftPy, ok_bind, List.length_append, hl]
    refine congrArg Except.ok (Prod.ext ?_ (by simp only; omega))
    simp only [normaliseVar, ht, true_and]
    by_cases hdn : v.name = "Data"
    · simp only [hdn, if_true] at hx
      simp [hdn, hx]
    · simp only [hdn, if_false] at hx
      obtain ⟨s, hs', rfl⟩ := hx
      simp only [hdn, ne_eq, not_false_eq_true, if_true]
      rw [isStripped_unique hs' (rstrip0_isStripped content)]
  · rename_i ht
    obtain ⟨hl, hx⟩ := h
    have hpos : 0 < v.size := by
      unfold WFVar at hv
      revert hv
      cases hty : v.type <;> simp_all [wireWidth] <;> omega
    have hle := hlen (by intro hc; rw [hc] at hl; simp at hl; omega)
    rw [hl] at hle
    have hsz : decodeSize rt data v pos = .ok (v.size, pos) := by unfold decodeSize; rw [if_neg ht]
    simp only [decodeVar, hsz, ok_bind]
    rw [if_neg (by omega), ← hl, unpackData_at rt hd, hx]
    simp only [liftPy, ok_bind, normaliseVar, ht, false_and, if_false]

theorem drop_next {α : Type} {l a b : List α} {pos : Nat} (h : l.drop pos = a ++ b) : l.drop (pos + a.length) = b := by
  rw [← List.drop_drop, h, List.drop_left]

theorem varData_eta {d : VarData} {v : TVar} (h1 : d.name = v.name) (h2 : d.varType = some v.type) :
    { name := v.name, data := d.data, varType := some v.type } = d := by
  cases d; simp_all

theorem decodeVars_at {rt : Runtime} {data : Bytes} : ∀ {vs : List TVar} {raw post : Bytes} {pos : Nat} {ds : List VarData}
    {blk : BlockData}, (∀ v ∈ vs, WFVar v) → data.drop pos = raw ++ post → VarsBytes rt vs raw ds →
    decodeVars rt data vs pos blk = .ok (ds.foldl BlockData.addVariable blk, pos + raw.length)
  | [], raw, post, pos, ds, blk, _, _, h => by
    obtain ⟨rfl, rfl⟩ := h; rfl
  | v :: vs, raw, post, pos, ds, blk, hw, hd, h => by
    obtain ⟨r₁, r₂, d, ds', rfl, rfl, hn, ht, hf, hv⟩ := h
    rw [List.append_assoc] at hd
    simp only [decodeVars, decodeVar_at (hw v List.mem_cons_self) hd hf, ok_bind, varData_eta hn ht]
    rw [decodeVars_at (fun v hv => hw v (List.mem_cons_of_mem _ hv)) (drop_next hd) hv]
    simp [Nat.add_assoc]

theorem decodeInstances_at {rt : Runtime} {data : Bytes} {tb : TBlock} (hw : ∀ v ∈ tb.vars, WFVar v) :
    ∀ {bs : List BlockData} {i pos : Nat} {raw post : Bytes} {blocks : Dict String (List BlockData)},
    data.drop pos = raw ++ post → InstancesBytes rt tb i raw bs →
    decodeInstances rt data tb bs.length i pos blocks = .ok (bs.foldl addBlock blocks, pos + raw.length)
  | [], i, pos, raw, post, blocks, hd, h => by
    cases (show raw = [] from h); rfl
  | b :: bs, i, pos, raw, post, blocks, hd, h => by
    obtain ⟨r₁, r₂, ds, rfl, hv, rfl, hi⟩ := h
    rw [List.append_assoc] at hd
    simp only [List.length_cons, decodeInstances, decodeVars_at hw hd hv, ok_bind]
    rw [decodeInstances_at hw (drop_next hd) hi]
    simp only [List.length_append, List.foldl_cons, Nat.add_assoc]
    rfl

theorem decodeCount_at {rt : Runtime} {data cnt post : Bytes} {tb : TBlock} {pos n : Nat} (hd : data.drop pos = cnt ++ post)
    (hc : CountOk tb n) (hcnt : cnt = (if tb.blockType = .variable then [UInt8.ofNat n] else [])) :
    decodeCount rt data tb pos = .ok (n, pos + cnt.length) := by
  unfold CountOk at hc
  unfold decodeCount
  cases ht : tb.blockType <;> simp only [ht] at hc <;> simp only [ht, reduceCtorEq, if_false, if_true] at hcnt
  · subst hc; subst hcnt; rfl
  · subst hc; subst hcnt; rfl
  · subst hcnt
    have hn : n < 256 := by omega
    have := unpackInt_at (rt := rt) (ty := .u8) (by rfl) (by rfl) hd rfl (unpack1 n hn)
    simp only [this, liftPy, ok_bind, Int.toNat_natCast]
    rfl

theorem decodeBlocks_at {rt : Runtime} {data : Bytes} : ∀ {tbs : List TBlock} {pos : Nat} {raw post : Bytes}
    {bss : List (List BlockData)} {blocks : Dict String (List BlockData)}, (∀ tb ∈ tbs, ∀ v ∈ tb.vars, WFVar v) →
    data.drop pos = raw ++ post → BlocksBytes rt tbs raw bss →
    decodeBlocks rt data tbs pos blocks = .ok (bss.flatten.foldl addBlock blocks, pos + raw.length)
  | [], pos, raw, post, bss, blocks, _, hd, h => by
    obtain ⟨rfl, rfl⟩ := h; rfl
  | tb :: tbs, pos, raw, post, bss, blocks, hw, hd, h => by
    obtain ⟨cnt, r₁, r₂, bs, bss', rfl, rfl, hco, hcnt, hi, hb⟩ := h
    simp only [List.append_assoc] at hd
    simp only [decodeBlocks, decodeCount_at hd hco hcnt, ok_bind,
      decodeInstances_at (hw tb List.mem_cons_self) (drop_next hd) hi]
    have := decodeBlocks_at (blocks := List.foldl addBlock blocks bs) (fun tb h => hw tb (List.mem_cons_of_mem _ h))
      (drop_next (drop_next hd)) hb
    rw [this]
    simp [Nat.add_assoc]

/-! ## Inversion of `deserialize` -/

theorem deserialize_inv {env : DeserEnv} {st : DeserState} {dg : Bytes} {m : Message}
    (h : (deserialize env st dg).1 = .ok (some m)) :
    ∃ buf acks buf' t, stripAcks dg = .ok (buf, acks) ∧ expandPacket buf = .ok buf' ∧ 6 < buf'.length ∧
      decodeHeader env.dict (slice buf' 6 12) = .ok (some t) ∧ validateUdpMsg env.xml t.name = .ok true ∧
      wantsParse env t.name = .ok true ∧ decodeData env.rt (some t) (buf' ++ acks) = .ok m := by
  unfold deserialize at h
  split at h
  · cases h
  · rename_i buf acks hs
    split at h
    · cases h
    · rename_i buf' he
      unfold deserializeRest at h
      split at h
      · cases h
      · simp only [Except.ok.injEq, reduceCtorEq] at h
      · rename_i st' hdt
        unfold decodeTemplate at hdt
        split at hdt
        · cases hdt
        · rename_i hlen
          split at hdt
          · cases hdt
          · rename_i t? hdh
            simp only [Prod.mk.injEq, Except.ok.injEq] at hdt
            obtain ⟨hsome, rfl⟩ := hdt
            cases t? with
            | none => cases hsome
            | some t =>
              simp only [currentName, ok_bind, bind_ok] at h
              obtain ⟨al, hal, h⟩ := h
              cases al
              · simp at h
              · simp only [Bool.not_true, Bool.false_eq_true, if_false, bind_ok] at h
                obtain ⟨w, hw, h⟩ := h
                cases w
                · simp at h
                · simp only [if_true] at h
                  refine ⟨buf, acks, buf', t, hs, he, by omega, hdh, hal, hw, ?_⟩
                  unfold runDecode at h
                  split at h
                  · simp only [Except.ok.injEq, Option.some.injEq] at h; rw [← h]; assumption
                  · simp at h
                  · cases h
                  · cases h

theorem decodeAcks_inv {rt : Runtime} {ackData : Bytes} : ∀ {n pos : Nat} {m m' : Message},
    decodeAcks rt ackData n pos m = .ok m' →
    ∃ ids post, ids.length = n ∧ (∀ a ∈ ids, a < 2 ^ 32) ∧ ackData.drop pos = ids.flatMap ackBytes ++ post ∧
      m' = { m with acks := m.acks ++ ids, numAcks := m.numAcks + n }
  | 0, pos, m, m', h => by
    simp only [decodeAcks, Except.ok.injEq] at h
    subst h
    exact ⟨[], ackData.drop pos, rfl, by simp, rfl, by simp⟩
  | n + 1, pos, m, m', h => by
    simp only [decodeAcks, bind_ok, liftPy_ok] at h
    obtain ⟨x, hx, h⟩ := h
    obtain ⟨raw, post, f, hd, hl, hu, hst⟩ := unpackInt_inv (ty := .u32) (by rfl) hx
    cases hu
    obtain ⟨rfl, _⟩ := structUnpack_unsigned rfl hst
    obtain ⟨ids, post', h1, h2, h3, rfl⟩ := decodeAcks_inv h
    have h4 := drop_next hd
    rw [hl, h3] at h4
    subst h4
    have hlt : leVal raw < 2 ^ 32 := by
      have := leVal_lt raw
      rw [hl] at this; exact this
    refine ⟨leVal raw :: ids, post', by simp [h1], ?_, ?_, ?_⟩
    · intro a ha
      rcases List.mem_cons.mp ha with rfl | ha
      · exact hlt
      · exact h2 a ha
    · rw [hd, List.flatMap_cons, ackBytes_eq, leBytes_leVal_of_length hl, List.append_assoc]
    · simp [Message.addAck, Endian.order]; omega

theorem decodeData_inv {rt : Runtime} {t : Template} {data : Bytes} {m : Message} (h : decodeData rt (some t) data = .ok m) :
    ∃ flags pid off pos' m₁, data[0]? = some flags ∧ unpackInt rt data .u32 1 (some .big) = .ok pid ∧
      unpackInt rt data .u8 5 = .ok off ∧
      decodeAckPart rt data { name := t.name, sendFlags := flags.toNat, packetId := pid.toNat } = .ok m₁ ∧
      decodeBlocks rt data t.blocks (6 + freqBytes t.freq + off.toNat) [] = .ok (m.blocks, pos') ∧
      (m.blocks = [] → t.blocks = []) ∧ m.acks = m₁.acks ∧ m.name = m₁.name ∧ m.sendFlags = m₁.sendFlags ∧
      m.packetId = m₁.packetId ∧ m.reliable = (m₁.reliable || decide (m₁.sendFlags &&& flagReliable ≠ 0)) := by
  simp only [decodeData, ok_bind, bind_ok, liftPy_ok] at h
  obtain ⟨flags, hfl, pid, hpid, m₁, hm₁, off, hoff, ⟨bl, pos'⟩, hbl, h⟩ := h
  have hfl' : data[0]? = some flags := by
    unfold index at hfl
    split at hfl
    · cases hfl; assumption
    · cases hfl
  split at h
  · cases h
  · rename_i hne
    simp only [Except.ok.injEq] at h
    subst h
    refine ⟨flags, pid, off, pos', m₁, hfl', hpid, hoff, hm₁, hbl, ?_, ?_, ?_, ?_, ?_, ?_⟩
    · intro hb
      simp only at hb
      have := Decidable.not_and_iff_not_or_not.mp hne
      rcases this with h | h
      · exact absurd (by simp [hb]) h
      · exact List.length_eq_zero_iff.mp (by omega)
    all_goals (by_cases hr : m₁.sendFlags &&& flagReliable = 0 <;> simp [hr])

theorem stripAcks_inv {dg buf acks : Bytes} (h : stripAcks dg = .ok (buf, acks)) (hne : buf ≠ []) :
    ∃ flags, dg[0]? = some flags ∧ buf[0]? = some flags ∧ dg = buf ++ acks ∧
      (if flags.toNat &&& 0x10 ≠ 0 then ∃ A n, acks = A ++ [n] ∧ A.length = 4 * n.toNat else acks = []) := by
  simp only [stripAcks, bind_ok] at h
  obtain ⟨b0, h0, h⟩ := h
  have h0' : dg[0]? = some b0 := by
    unfold index at h0
    split at h0
    · cases h0; assumption
    · cases h0
  refine ⟨b0, h0', ?_⟩
  rw [show flagAck = 0x10 from rfl] at h
  by_cases hf : b0.toNat &&& 0x10 = 0
  · simp only [hf, ne_eq, not_true_eq_false, if_false, Except.ok.injEq, Prod.mk.injEq] at h
    obtain ⟨rfl, rfl⟩ := h
    exact ⟨h0', by simp, by simp [hf]⟩
  · simp only [ne_eq, hf, not_false_eq_true, if_true, bind_ok, Except.ok.injEq, Prod.mk.injEq] at h
    obtain ⟨n, hn, rfl, rfl⟩ := h
    have hn' : dg[dg.length - 1]? = some n := by
      unfold index at hn
      split at hn
      · cases hn; assumption
      · cases hn
    have hlen : 1 + 4 * n.toNat < dg.length := by
      rcases Nat.lt_or_ge (1 + 4 * n.toNat) dg.length with hc | hc
      · exact hc
      · exfalso; apply hne
        simp only [dropLastN]
        rw [show dg.length - (1 + 4 * n.toNat) = 0 by omega]; simp
    refine ⟨?_, ?_, ?_⟩
    · rw [dropLastN, List.getElem?_take_of_lt (by omega)]; exact h0'
    · simp [dropLastN, lastN]
    · rw [if_pos hf]
      rw [← List.getLast?_eq_getElem?] at hn'
      obtain ⟨L, rfl⟩ : ∃ L, dg = L ++ [n] := List.getLast?_eq_some_iff.mp hn'
      refine ⟨L.drop (L.length - 4 * n.toNat), n, ?_, ?_⟩
      · simp only [lastN, List.length_append, List.length_singleton]
        rw [show L.length + 1 - (1 + 4 * n.toNat) = L.length - 4 * n.toNat by omega]
        rw [List.drop_append_of_le_length (by omega)]
      · simp at hlen ⊢; omega

end Pyogp
