import Verif.Spec.Reading
import Verif.Proofs.Outcomes
import Verif.Proofs.HeaderId

namespace Pyogp
open Spec

/-! ## Bytes are either complete or too short -/

theorem wfVar_size {v : TVar} (hv : WFVar v) : 0 < v.size := by
  unfold WFVar at hv
  split at hv
  · rename_i n hn
    rw [hv]
    cases h : v.type <;> rw [h] at hn <;> simp [wireWidth] at hn <;> omega
  · split at hv
    · omega
    · exact hv

theorem field_cases (rt : Runtime) {v : TVar} (hv : WFVar v) (rest : Bytes) :
    (∃ raw post x, rest = raw ++ post ∧ FieldBytes rt v raw x) ∨ FieldShort v rest := by
  rcases Nat.lt_or_ge rest.length v.size with h | h
  · exact .inr (.inl h)
  · by_cases ht : v.type = .variable
    · rcases Nat.lt_or_ge (rest.drop v.size).length (littleEndian (rest.take v.size)) with h2 | h2
      · exact .inr (.inr ⟨ht, rest.take v.size, rest.drop v.size, (List.take_append_drop _ _).symm, by simp; omega, h2⟩)
      · left
        generalize hn : littleEndian (rest.take v.size) = n at h2
        have hl : ((rest.drop v.size).take n).length = n := by rw [List.length_take]; omega
        have hr : rest = rest.take v.size ++ (rest.drop v.size).take n ++ (rest.drop v.size).drop n := by
          rw [List.append_assoc, List.take_append_drop, List.take_append_drop]
        by_cases hd : v.name = "Data"
        · refine ⟨_, _, .str ((rest.drop v.size).take n), hr, ?_⟩
          unfold FieldBytes
          rw [if_pos ht]
          exact ⟨_, _, rfl, by simp; omega, by rw [hn, hl], by rw [if_pos hd]⟩
        · refine ⟨_, _, .str (rstrip0 ((rest.drop v.size).take n)), hr, ?_⟩
          unfold FieldBytes
          rw [if_pos ht]
          exact ⟨_, _, rfl, by simp; omega, by rw [hn, hl], by rw [if_neg hd]; exact ⟨_, rstrip0_isStripped _, rfl⟩⟩
    · left
      have hl : (rest.take v.size).length = v.size := by simp; omega
      obtain ⟨x, hx⟩ := unpackData_total rt hv hl
      refine ⟨_, _, x, (List.take_append_drop v.size rest).symm, ?_⟩
      unfold FieldBytes
      rw [if_neg ht]
      exact ⟨hl, hx⟩

theorem vars_cases (rt : Runtime) : ∀ {vs : List TVar}, (∀ v ∈ vs, WFVar v) → ∀ rest : Bytes,
    (∃ raw post ds, rest = raw ++ post ∧ VarsBytes rt vs raw ds) ∨ VarsShort rt vs rest
  | [], _, rest => .inl ⟨[], rest, [], rfl, rfl, rfl⟩
  | v :: vs, hw, rest => by
    rcases field_cases rt (hw v List.mem_cons_self) rest with ⟨raw, post, x, rfl, hf⟩ | h
    · rcases vars_cases rt (fun u hu => hw u (List.mem_cons_of_mem _ hu)) post with ⟨raw2, post2, ds, rfl, hd⟩ | ⟨vs₁, u, vs₂, raw2, tail, ds, rfl, rfl, hd, hs⟩
      · exact .inl ⟨raw ++ raw2, post2, { name := v.name, data := x, varType := some v.type } :: ds, (List.append_assoc ..).symm,
          raw, raw2, _, ds, rfl, rfl, rfl, rfl, hf, hd⟩
      · exact .inr ⟨v :: vs₁, u, vs₂, raw ++ raw2, tail, { name := v.name, data := x, varType := some v.type } :: ds, rfl, (List.append_assoc ..).symm,
          ⟨raw, raw2, _, ds, rfl, rfl, rfl, rfl, hf, hd⟩, hs⟩
    · exact .inr ⟨[], v, vs, [], rest, [], rfl, rfl, ⟨rfl, rfl⟩, h⟩

theorem instances_cases (rt : Runtime) {tb : TBlock} (hw : ∀ v ∈ tb.vars, WFVar v) : ∀ (n i : Nat) (rest : Bytes),
    (∃ raw post bs, rest = raw ++ post ∧ bs.length = n ∧ InstancesBytes rt tb i raw bs) ∨ InstancesShort rt tb i n rest
  | 0, i, rest => .inl ⟨[], rest, [], rfl, rfl, rfl⟩
  | n + 1, i, rest => by
    rcases vars_cases rt hw rest with ⟨raw, post, ds, rfl, hd⟩ | h
    · rcases instances_cases rt hw n (i + 1) post with ⟨raw2, post2, bs, rfl, hl, hb⟩ | ⟨raw2, tail, bs, hl, rfl, hb, hs⟩
      · exact .inl ⟨raw ++ raw2, post2, blockOf tb.name i ds :: bs, (List.append_assoc ..).symm, by simp [hl], raw, raw2, ds, rfl, hd, rfl, hb⟩
      · exact .inr ⟨raw ++ raw2, tail, blockOf tb.name i ds :: bs, by simp; omega, (List.append_assoc ..).symm, ⟨raw, raw2, ds, rfl, hd, rfl, hb⟩, hs⟩
    · exact .inr ⟨[], rest, [], by simp, rfl, rfl, h⟩

theorem atBlock_cons {rt : Runtime} {P : TBlock → Bytes → Prop} {tb : TBlock} {tbs : List TBlock} {cnt r rest : Bytes} {bs : List BlockData}
    (hc : CountOk tb bs.length) (hcnt : cnt = (if tb.blockType = .variable then [UInt8.ofNat bs.length] else [])) (hi : InstancesBytes rt tb 0 r bs)
    (h : AtBlock rt P tbs rest) : AtBlock rt P (tb :: tbs) (cnt ++ r ++ rest) := by
  obtain ⟨tbs₁, tb', tbs₂, raw, tail, bss, rfl, rfl, hb, hp⟩ := h
  exact ⟨tb :: tbs₁, tb', tbs₂, cnt ++ r ++ raw, tail, bs :: bss, rfl, by simp, ⟨cnt, r, raw, bs, bss, rfl, rfl, hc, hcnt, hi, hb⟩, hp⟩

theorem blocks_cases (rt : Runtime) : ∀ {tbs : List TBlock}, (∀ tb ∈ tbs, ∀ v ∈ tb.vars, WFVar v) → ∀ rest : Bytes,
    (∃ raw post bss, rest = raw ++ post ∧ BlocksBytes rt tbs raw bss) ∨ Short rt tbs rest ∨ NoCount rt tbs rest
  | [], _, rest => .inl ⟨[], rest, [], rfl, rfl, rfl⟩
  | tb :: tbs, hw, rest => by
    have key : ∀ cnt body n, rest = cnt ++ body → CountOk tb n → cnt = (if tb.blockType = .variable then [UInt8.ofNat n] else []) →
        (∃ raw post bss, rest = raw ++ post ∧ BlocksBytes rt (tb :: tbs) raw bss) ∨ Short rt (tb :: tbs) rest ∨ NoCount rt (tb :: tbs) rest := by
      intro cnt body n hr hc hcnt
      rcases instances_cases rt (hw tb List.mem_cons_self) n 0 body with ⟨r, post, bs, rfl, rfl, hb⟩ | h
      · subst hr
        rcases blocks_cases rt (fun u hu => hw u (List.mem_cons_of_mem _ hu)) post with ⟨raw, post2, bss, rfl, hbb⟩ | h | h
        · exact .inl ⟨cnt ++ r ++ raw, post2, bs :: bss, by simp, cnt, r, raw, bs, bss, rfl, rfl, hc, hcnt, hb, hbb⟩
        · refine .inr (.inl ?_); rw [← List.append_assoc]; exact atBlock_cons hc hcnt hb h
        · refine .inr (.inr ?_); rw [← List.append_assoc]; exact atBlock_cons hc hcnt hb h
      · exact .inr (.inl ⟨[], tb, tbs, [], rest, [], rfl, rfl, ⟨rfl, rfl⟩, .inr ⟨cnt, body, n, hr, hc, hcnt, h⟩⟩)
    cases ht : tb.blockType with
    | single => exact key [] rest 1 rfl (by simp [CountOk, ht]) (by simp [ht])
    | multiple => exact key [] rest tb.number rfl (by simp [CountOk, ht]) (by simp [ht])
    | unknown => exact .inr (.inl ⟨[], tb, tbs, [], rest, [], rfl, rfl, ⟨rfl, rfl⟩, .inl ht⟩)
    | «variable» =>
      cases rest with
      | nil => exact .inr (.inr ⟨[], tb, tbs, [], [], [], rfl, rfl, ⟨rfl, rfl⟩, ht, rfl⟩)
      | cons c body =>
        refine key [c] body c.toNat rfl ?_ (by simp [ht])
        have := c.toNat_lt
        simp only [CountOk, ht]; omega

/-! ## What the decoder does in each case -/

theorem decodeVar_short {rt : Runtime} {data : Bytes} {v : TVar} (hv : WFVar v) {pos : Nat} (h : FieldShort v (data.drop pos)) :
    decodeVar rt data v pos = .error .retNone := by
  have hs := wfVar_size hv
  unfold decodeVar
  rcases h with h | ⟨ht, len, tail, hd, hl, hlt⟩
  · simp only [List.length_drop] at h
    by_cases ht : v.type = .variable
    · have : decodeSize rt data v pos = .error .retNone := by
        unfold decodeSize
        rw [if_pos ht, if_pos (by omega)]
      rw [this]; rfl
    · have : decodeSize rt data v pos = .ok (v.size, pos) := by
        unfold decodeSize
        rw [if_neg ht]
      rw [this]
      simp only [ok_bind]
      rw [if_pos (by omega)]
  · -- the length is there
    have hlen := congrArg List.length hd
    simp only [List.length_drop, List.length_append] at hlen
    have hsz : v.size = 1 ∨ v.size = 2 ∨ v.size = 4 := by
      unfold WFVar at hv; rw [ht] at hv; simpa [wireWidth] using hv
    have hle := littleEndian_eq len
    have : decodeSize rt data v pos = .ok (littleEndian len, pos + v.size) := by
      unfold decodeSize
      rw [if_pos ht, if_neg (by omega)]
      rcases hsz with hz | hz | hz
      · rw [if_pos hz]
        have hu := unpackInt_at (rt := rt) (ty := .u8) (by rfl) (by rfl) hd (by rw [hl, hz])
          (structUnpack_unsigned_ok (d := .big) (f := .B) rfl (by rw [hl, hz]; rfl))
        rw [hu]
        simp only [liftPy, ok_bind, Int.toNat_natCast]
        obtain ⟨b, rfl⟩ : ∃ b, len = [b] := List.length_eq_one_iff.mp (by rw [hl, hz])
        simp only [Endian.order, List.reverse_singleton, hle]
      · rw [if_neg (by omega), if_pos hz]
        have hu := unpackInt_at (rt := rt) (ty := .u16) (by rfl) (by rfl) hd (by rw [hl, hz])
          (structUnpack_unsigned_ok (d := .little) (f := .H) rfl (by rw [hl, hz]; rfl))
        rw [hu]
        simp only [liftPy, ok_bind, Int.toNat_natCast, Endian.order, hle]
      · rw [if_neg (by omega), if_neg (by omega), if_pos hz]
        have hu := unpackInt_at (rt := rt) (ty := .u32) (by rfl) (by rfl) hd (by rw [hl, hz])
          (structUnpack_unsigned_ok (d := .little) (f := .I) rfl (by rw [hl, hz]; rfl))
        rw [hu]
        simp only [liftPy, ok_bind, Int.toNat_natCast, Endian.order, hle]
    rw [this]
    simp only [ok_bind]
    rw [if_pos (by omega)]

theorem decodeVars_short {rt : Runtime} {data : Bytes} : ∀ {vs : List TVar} {pos : Nat} {blk : BlockData}, (∀ v ∈ vs, WFVar v) →
    VarsShort rt vs (data.drop pos) → decodeVars rt data vs pos blk = .error .retNone
  | [], _, _, _, h => by
    obtain ⟨vs₁, v, vs₂, _, _, _, h, _⟩ := h
    cases vs₁ <;> cases h
  | u :: vs, pos, blk, hw, h => by
    obtain ⟨vs₁, v, vs₂, raw, tail, ds, h, hd, hv, hs⟩ := h
    cases vs₁ with
    | nil =>
      cases h
      obtain ⟨rfl, _⟩ := hv
      rw [List.nil_append] at hd
      rw [← hd] at hs
      simp only [decodeVars, decodeVar_short (hw u List.mem_cons_self) hs]
      rfl
    | cons w vs₁ =>
      cases h
      obtain ⟨r₁, r₂, d, ds', rfl, rfl, hn, ht, hf, hv⟩ := hv
      rw [List.append_assoc] at hd
      simp only [decodeVars, decodeVar_at (hw u List.mem_cons_self) hd hf, ok_bind]
      refine decodeVars_short (fun x hx => hw x (List.mem_cons_of_mem _ hx)) ?_
      exact ⟨vs₁, v, vs₂, r₂, tail, ds', rfl, drop_next hd, hv, hs⟩

theorem decodeInstances_short {rt : Runtime} {data : Bytes} {tb : TBlock} (hw : ∀ v ∈ tb.vars, WFVar v) : ∀ {n i pos : Nat}
    {blocks : Dict String (List BlockData)}, InstancesShort rt tb i n (data.drop pos) → decodeInstances rt data tb n i pos blocks = .error .retNone
  | 0, i, pos, blocks, h => by
    obtain ⟨_, _, _, h, _⟩ := h
    omega
  | n + 1, i, pos, blocks, h => by
    obtain ⟨raw, tail, bs, hl, hd, hb, hs⟩ := h
    cases bs with
    | nil =>
      cases (show raw = [] from hb)
      rw [List.nil_append] at hd
      rw [← hd] at hs
      simp only [decodeInstances, decodeVars_short hw hs]
      rfl
    | cons b bs =>
      obtain ⟨r₁, r₂, ds, rfl, hv, rfl, hi⟩ := hb
      rw [List.append_assoc] at hd
      simp only [decodeInstances, decodeVars_at hw hd hv, ok_bind]
      exact decodeInstances_short hw ⟨r₂, tail, bs, by simp at hl; omega, drop_next hd, hi, hs⟩

theorem decodeBlocks_atBlock {rt : Runtime} {data : Bytes} {P : TBlock → Bytes → Prop} {s : Stop}
    (hP : ∀ tb pos, (∀ v ∈ tb.vars, WFVar v) → P tb (data.drop pos) → ∀ tbs blocks, decodeBlocks rt data (tb :: tbs) pos blocks = .error s) :
    ∀ {tbs : List TBlock} {pos : Nat} {blocks : Dict String (List BlockData)}, (∀ tb ∈ tbs, ∀ v ∈ tb.vars, WFVar v) →
    AtBlock rt P tbs (data.drop pos) → decodeBlocks rt data tbs pos blocks = .error s
  | [], _, _, _, h => by
    obtain ⟨tbs₁, tb, tbs₂, _, _, _, h, _⟩ := h
    cases tbs₁ <;> cases h
  | tb :: tbs, pos, blocks, hw, h => by
    obtain ⟨tbs₁, tb', tbs₂, raw, tail, bss, h, hd, hb, hp⟩ := h
    cases tbs₁ with
    | nil =>
      cases h
      obtain ⟨rfl, _⟩ := hb
      rw [List.nil_append] at hd
      rw [← hd] at hp
      exact hP tb pos (hw tb List.mem_cons_self) hp tbs blocks
    | cons tb₁ tbs₁ =>
      cases h
      obtain ⟨cnt, r₁, r₂, bs, bss', rfl, rfl, hco, hcnt, hi, hb⟩ := hb
      simp only [List.append_assoc] at hd
      simp only [decodeBlocks, decodeCount_at hd hco hcnt, ok_bind, decodeInstances_at (hw tb List.mem_cons_self) (drop_next hd) hi]
      refine decodeBlocks_atBlock hP (fun x hx => hw x (List.mem_cons_of_mem _ hx)) ?_
      exact ⟨tbs₁, tb', tbs₂, r₂, tail, bss', rfl, drop_next (drop_next hd), hb, hp⟩

theorem decodeBlocks_short {rt : Runtime} {data : Bytes} {tbs : List TBlock} {pos : Nat} {blocks : Dict String (List BlockData)}
    (hw : ∀ tb ∈ tbs, ∀ v ∈ tb.vars, WFVar v) (h : Short rt tbs (data.drop pos)) : decodeBlocks rt data tbs pos blocks = .error .retNone := by
  refine decodeBlocks_atBlock ?_ hw h
  intro tb pos hv hp tbs blocks
  rcases hp with ht | ⟨cnt, body, n, hd, hc, hcnt, hi⟩
  · simp only [decodeBlocks, decodeCount, ht]; rfl
  · simp only [decodeBlocks, decodeCount_at hd hc hcnt, ok_bind]
    rw [decodeInstances_short hv (by rw [drop_next hd]; exact hi)]
    rfl

theorem unpackInt_empty (rt : Runtime) {data : Bytes} {pos : Nat} (h : data.drop pos = []) : unpackInt rt data .u8 pos = .error .dataUnpacking := by
  have hsel : selectBytes data .u8 (some pos) none = [] := by
    have : selectBytes data .u8 (some pos) none = slice data pos (pos + 1) := rfl
    rw [this, slice, h, List.take_nil]
  simp only [unpackInt, unpackData, unpackerTable, hsel]
  rfl

theorem decodeBlocks_noCount {rt : Runtime} {data : Bytes} {tbs : List TBlock} {pos : Nat} {blocks : Dict String (List BlockData)}
    (hw : ∀ tb ∈ tbs, ∀ v ∈ tb.vars, WFVar v) (h : NoCount rt tbs (data.drop pos)) :
    decodeBlocks rt data tbs pos blocks = .error (.exc .dataUnpacking) := by
  refine decodeBlocks_atBlock ?_ hw h
  rintro tb pos hv ⟨ht, hd⟩ tbs blocks
  simp only [decodeBlocks, decodeCount, ht, unpackInt_empty rt hd]
  rfl

end Pyogp
