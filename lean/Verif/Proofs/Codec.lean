import Verif.Proofs.Field
import Verif.Proofs.Util
import Verif.Proofs.Dict
import Verif.Spec.Transmit

/-! # Decoding what was encoded, at any position of a datagram -/

namespace Pyogp
open Spec

/-- What a template variable is received as, for the block `b` that was sent. -/
def expVar (rt : Runtime) (b : BlockData) (v : TVar) : Option VarData := do
  let vd ← b.vars.get? v.name
  let y ← receivedAs rt v vd.data
  some { name := v.name, data := y, varType := some v.type }

def expVars (rt : Runtime) (b : BlockData) : List TVar → Option (List VarData)
  | [] => some []
  | v :: vs => do
    let d ← expVar rt b v
    let ds ← expVars rt b vs
    some (d :: ds)

/-- The block object the receiver builds. -/
def recvBlock (name : String) (i : Nat) (ds : List VarData) : BlockData :=
  ds.foldl BlockData.addVariable { BlockData.new name with number := i }

theorem expVar_some {rt b v d} (h : expVar rt b v = some d) :
    ∃ vd y, b.vars.get? v.name = some vd ∧ receivedAs rt v vd.data = some y ∧
      d = { name := v.name, data := y, varType := some v.type } := by
  simp only [expVar, Option.bind_eq_bind, Option.bind_eq_some_iff, Option.some.injEq] at h
  obtain ⟨vd, h1, y, h2, rfl⟩ := h
  exact ⟨vd, y, h1, h2, rfl⟩

theorem unpackInt_of_field {rt ty n s d} {i : Int} (hw : wireInt ty = some (n, s, d)) (hr : InRange n s i)
    {p : Bytes} (hp : packData rt (.num (.int i)) ty = .ok p) (pre post : Bytes) :
    unpackInt rt (pre ++ p ++ post) ty pre.length = .ok i := by
  obtain ⟨p', h1, h2, h3⟩ := field_int rt hw hr
  rw [hp] at h1; cases h1
  obtain ⟨f, _, hu, _, _, hs⟩ := table_of_wireInt hw
  have hsel : selectBytes (pre ++ p ++ post) ty (some pre.length) none = p := by
    simp only [selectBytes, hs]
    exact slice_append pre p post _ h2
  have : unpackData rt (pre ++ p ++ post) ty (some pre.length) none none = .ok (.num (.int i)) := by
    rw [← h3]
    unfold unpackData
    simp only [hsel]
    rfl
  simp only [unpackInt, this]; rfl

/-- Length prefixes. -/
theorem packVarLen_ok (rt : Runtime) {size len : Nat} (hs : size = 1 ∨ size = 2 ∨ size = 4) (hl : len < 256 ^ size) :
    ∃ l, packVarLen rt size len = .ok l ∧ l.length = size ∧
      ∀ pre post v, v.type = .variable → v.size = size →
        decodeSize rt (pre ++ l ++ post) v pre.length = .ok (len, pre.length + size) := by
  rcases hs with rfl | rfl | rfl
  all_goals
    simp only [packVarLen]
  · obtain ⟨p, h1, h2, _⟩ := field_int rt (ty := .u8) (n := 1) (s := false) (d := .big) (i := len) rfl
      (by simp [InRange]; omega)
    refine ⟨p, by simpa using h1, h2, ?_⟩
    intro pre post v hv hsz
    have hu := unpackInt_of_field (rt := rt) (ty := .u8) (n := 1) (s := false) (d := .big) (i := len) rfl
      (by simp [InRange]; omega) h1 pre post
    simp only [decodeSize, hv, hsz, if_true]
    rw [if_neg (by simp only [List.length_append, h2]; omega), hu]
    rfl
  · obtain ⟨p, h1, h2, _⟩ := field_int rt (ty := .u16) (n := 2) (s := false) (d := .little) (i := len) rfl
      (by simp [InRange]; omega)
    refine ⟨p, by simpa using h1, h2, ?_⟩
    intro pre post v hv hsz
    have hu := unpackInt_of_field (rt := rt) (ty := .u16) (n := 2) (s := false) (d := .little) (i := len) rfl
      (by simp [InRange]; omega) h1 pre post
    simp only [decodeSize, hv, hsz, if_true]
    rw [if_neg (by simp; omega), if_neg (by decide), hu]
    rfl
  · obtain ⟨p, h1, h2, _⟩ := field_int rt (ty := .u32) (n := 4) (s := false) (d := .little) (i := len) rfl
      (by simp [InRange]; omega)
    refine ⟨p, by simpa using h1, h2, ?_⟩
    intro pre post v hv hsz
    have hu := unpackInt_of_field (rt := rt) (ty := .u32) (n := 4) (s := false) (d := .little) (i := len) rfl
      (by simp [InRange]; omega) h1 pre post
    simp only [decodeSize, hv, hsz, if_true]
    rw [if_neg (by simp; omega), if_neg (by decide), if_neg (by decide), hu]
    rfl

theorem getVariable_ok {b : BlockData} {n vd} (h : b.vars.get? n = some vd) : b.getVariable n = .ok vd := by
  simp [BlockData.getVariable, Dict.get, h]

theorem decodeVar_serializeVar (rt : Runtime) {v : TVar} (hv : WFVar v) {b : BlockData} {d : VarData}
    (h : expVar rt b v = some d) :
    ∃ bs, serializeVar rt b v = .ok bs ∧
      ∀ pre post, decodeVar rt (pre ++ bs ++ post) v pre.length = .ok (d, pre.length + bs.length) := by
  obtain ⟨vd, y, hg, hr, rfl⟩ := expVar_some h
  obtain ⟨p, z, hp, hf, hu, hn⟩ := field_roundtrip rt hv hr
  simp only [serializeVar, getVariable_ok hg, hp, ok_bind]
  by_cases hvar : v.type = .variable
  · simp only [hvar, if_true]
    have hs : v.size = 1 ∨ v.size = 2 ∨ v.size = 4 := by
      unfold WFVar at hv; rw [hvar] at hv; simpa [wireWidth] using hv
    obtain ⟨l, hl1, hl2, hl3⟩ := packVarLen_ok rt hs (by simpa [fits, hvar] using hf)
    refine ⟨l ++ p, by rw [hl1]; rfl, ?_⟩
    intro pre post
    have e1 : pre ++ (l ++ p) ++ post = pre ++ l ++ (p ++ post) := by simp
    have e2 : pre ++ (l ++ p) ++ post = (pre ++ l) ++ p ++ post := by simp
    have hd := hl3 pre (p ++ post) v hvar rfl
    have hu' := unpackData_mid rt (pre ++ l) p post v.type
    rw [← e1] at hd
    rw [← e2, List.length_append, hl2] at hu'
    simp only [decodeVar, hd, ok_bind]
    rw [if_neg (by simp; omega), hu', hu]
    simp only [liftPy, ok_bind, hn]
    simp [hl2, Nat.add_assoc, hvar]
  · simp only [hvar, if_false]
    refine ⟨p, rfl, ?_⟩
    intro pre post
    have hsz : p.length = v.size := by simpa [fits, hvar] using hf
    have hu' := unpackData_mid rt pre p post v.type
    simp only [decodeVar, decodeSize, hvar, if_false, ok_bind]
    rw [if_neg (by simp; omega), ← hsz, hu', hu]
    simp only [liftPy, ok_bind, hn]

theorem decodeVars_serializeVars (rt : Runtime) {b : BlockData} : ∀ {vs : List TVar} {ds : List VarData},
    (∀ v ∈ vs, WFVar v) → expVars rt b vs = some ds →
    ∃ bs, serializeVars rt b vs = .ok bs ∧
      ∀ pre post blk, decodeVars rt (pre ++ bs ++ post) vs pre.length blk =
        .ok (ds.foldl BlockData.addVariable blk, pre.length + bs.length)
  | [], ds, _, h => by
    simp only [expVars, Option.some.injEq] at h
    subst h
    exact ⟨[], rfl, fun pre post blk => by simp [decodeVars]⟩
  | v :: vs, ds, hwf, h => by
    simp only [expVars, Option.bind_eq_bind, Option.bind_eq_some_iff, Option.some.injEq] at h
    obtain ⟨d, hd, ds', hds, rfl⟩ := h
    obtain ⟨bs, hs, hdec⟩ := decodeVar_serializeVar rt (hwf v List.mem_cons_self) hd
    obtain ⟨bs', hs', hdec'⟩ := decodeVars_serializeVars rt (fun v hv => hwf v (List.mem_cons_of_mem _ hv)) hds
    refine ⟨bs ++ bs', by simp only [serializeVars, hs, hs', ok_bind], ?_⟩
    intro pre post blk
    have e1 : pre ++ (bs ++ bs') ++ post = pre ++ bs ++ (bs' ++ post) := by simp
    have e2 : pre ++ bs ++ (bs' ++ post) = (pre ++ bs) ++ bs' ++ post := by simp
    have h1 := hdec pre (bs' ++ post)
    have h2 := hdec' (pre ++ bs) post (blk.addVariable d)
    simp only [decodeVars]
    rw [e1, h1]
    simp only [ok_bind]
    rw [e2, ← List.length_append, h2]
    simp [Nat.add_assoc]

/-- The instances of one block, as received, numbered from `i`. -/
def expInst (rt : Runtime) (tb : TBlock) : Nat → List BlockData → Option (List BlockData)
  | _, [] => some []
  | i, b :: bs => do
    let ds ← expVars rt b tb.vars
    let r ← expInst rt tb (i + 1) bs
    some (recvBlock tb.name i ds :: r)

theorem decodeInstances_serializeInstances (rt : Runtime) (tb : TBlock) (hwf : ∀ v ∈ tb.vars, WFVar v) :
    ∀ {l : List BlockData} {i : Nat} {r : List BlockData}, expInst rt tb i l = some r →
    ∃ bs, serializeInstances rt tb.vars l = .ok bs ∧
      ∀ pre post blocks, decodeInstances rt (pre ++ bs ++ post) tb l.length i pre.length blocks =
        .ok (r.foldl addBlock blocks, pre.length + bs.length)
  | [], i, r, h => by
    simp only [expInst, Option.some.injEq] at h
    subst h
    exact ⟨[], rfl, fun pre post blk => by simp [decodeInstances]⟩
  | b :: l, i, r, h => by
    simp only [expInst, Option.bind_eq_bind, Option.bind_eq_some_iff, Option.some.injEq] at h
    obtain ⟨ds, hd, r', hr, rfl⟩ := h
    obtain ⟨bs, hs, hdec⟩ := decodeVars_serializeVars rt hwf hd
    obtain ⟨bs', hs', hdec'⟩ := decodeInstances_serializeInstances rt tb hwf hr
    refine ⟨bs ++ bs', by simp only [serializeInstances, hs, hs', ok_bind], ?_⟩
    intro pre post blocks
    have e1 : pre ++ (bs ++ bs') ++ post = pre ++ bs ++ (bs' ++ post) := by simp
    have e2 : pre ++ bs ++ (bs' ++ post) = (pre ++ bs) ++ bs' ++ post := by simp
    have h1 := hdec pre (bs' ++ post) { BlockData.new tb.name with number := i }
    have h2 := hdec' (pre ++ bs) post (addBlock blocks (recvBlock tb.name i ds))
    simp only [decodeInstances, List.length_cons]
    rw [e1, h1]
    simp only [ok_bind]
    rw [e2, ← List.length_append]
    rw [show ds.foldl BlockData.addVariable { BlockData.new tb.name with number := i } = recvBlock tb.name i ds from rfl,
      h2]
    simp [Nat.add_assoc]

theorem block_roundtrip (rt : Runtime) (tb : TBlock) (hwf : ∀ v ∈ tb.vars, WFVar v) {m : Message}
    {l r : List BlockData} (hl : m.blocks.get? tb.name = some l) (hc : CountOk tb l.length)
    (h : expInst rt tb 0 l = some r) :
    ∃ bs, buildBlock rt tb m = .ok bs ∧
      ∀ pre post blocks, ∃ n pos, decodeCount rt (pre ++ bs ++ post) tb pre.length = .ok (n, pos) ∧
        decodeInstances rt (pre ++ bs ++ post) tb n 0 pos blocks =
        .ok (r.foldl addBlock blocks, pre.length + bs.length) := by
  obtain ⟨bs, hs, hdec⟩ := decodeInstances_serializeInstances rt tb hwf h
  have hg : m.getBlock tb.name = .ok l := by simp [Message.getBlock, Dict.get, hl]
  simp only [buildBlock, hg, ok_bind]
  unfold CountOk at hc
  cases hbt : tb.blockType <;> rw [hbt] at hc <;> simp only at hc
  case single =>
    refine ⟨bs, by simp [hs, ok_bind], ?_⟩
    intro pre post blocks
    refine ⟨l.length, pre.length, by simp [decodeCount, hbt, hc], hdec pre post blocks⟩
  case multiple =>
    refine ⟨bs, by simp [hs, hc, ok_bind], ?_⟩
    intro pre post blocks
    refine ⟨l.length, pre.length, by simp [decodeCount, hbt, hc], hdec pre post blocks⟩
  case «variable» =>
    have hr : InRange 1 false (l.length : Int) := by simp [InRange]; omega
    obtain ⟨p, h1, h2, _⟩ := field_int rt (ty := .u8) (n := 1) (s := false) (d := .big) rfl hr
    have h1' : structPack rt.ver .big .B l.length = .ok p := h1
    refine ⟨p ++ bs, by simp [h1', hs, ok_bind], ?_⟩
    intro pre post blocks
    have e1 : pre ++ (p ++ bs) ++ post = pre ++ p ++ (bs ++ post) := by simp
    have e2 : pre ++ p ++ (bs ++ post) = (pre ++ p) ++ bs ++ post := by simp
    have hu := unpackInt_of_field (rt := rt) (ty := .u8) (n := 1) (s := false) (d := .big) rfl hr h1 pre (bs ++ post)
    refine ⟨l.length, pre.length + 1, ?_, ?_⟩
    · simp only [decodeCount, hbt, e1, hu, liftPy, ok_bind]; rfl
    · have := hdec (pre ++ p) post blocks
      rw [← e2, ← e1] at this
      rw [List.length_append, h2] at this
      rw [this]
      simp [h2, Nat.add_assoc]

def expBlock (rt : Runtime) (tb : TBlock) (l : List BlockData) : Option (List BlockData) :=
  if CountOk tb l.length then expInst rt tb 0 l else none

/-- What each template block is received as. -/
def expBlocks (rt : Runtime) (m : Message) : List TBlock → Option (List (List BlockData))
  | [] => some []
  | tb :: tbs => do
    let l ← m.blocks.get? tb.name
    let r ← expBlock rt tb l
    let rs ← expBlocks rt m tbs
    some (r :: rs)

theorem blocks_roundtrip (rt : Runtime) {m : Message} : ∀ {tbs : List TBlock} {rs : List (List BlockData)},
    (∀ tb ∈ tbs, ∀ v ∈ tb.vars, WFVar v) → expBlocks rt m tbs = some rs →
    ∃ bs, buildBlocks rt m tbs = .ok bs ∧
      ∀ pre post blocks, decodeBlocks rt (pre ++ bs ++ post) tbs pre.length blocks =
        .ok (rs.flatten.foldl addBlock blocks, pre.length + bs.length)
  | [], rs, _, h => by
    simp only [expBlocks, Option.some.injEq] at h
    subst h
    exact ⟨[], rfl, fun pre post blk => by simp [decodeBlocks]⟩
  | tb :: tbs, rs, hwf, h => by
    simp only [expBlocks, Option.bind_eq_bind, Option.bind_eq_some_iff, Option.some.injEq] at h
    obtain ⟨l, hl, r, hr, rs', hrs, rfl⟩ := h
    unfold expBlock at hr
    split at hr
    · rename_i hc
      obtain ⟨bs, hs, hdec⟩ := block_roundtrip rt tb (hwf tb List.mem_cons_self) hl hc hr
      obtain ⟨bs', hs', hdec'⟩ := blocks_roundtrip rt (fun tb h => hwf tb (List.mem_cons_of_mem _ h)) hrs
      refine ⟨bs ++ bs', by simp only [buildBlocks, hs, hs', ok_bind], ?_⟩
      intro pre post blocks
      have e1 : pre ++ (bs ++ bs') ++ post = pre ++ bs ++ (bs' ++ post) := by simp
      have e2 : pre ++ bs ++ (bs' ++ post) = (pre ++ bs) ++ bs' ++ post := by simp
      obtain ⟨n, pos, h1, h2⟩ := hdec pre (bs' ++ post) blocks
      have h3 := hdec' (pre ++ bs) post (r.foldl addBlock blocks)
      simp only [decodeBlocks]
      rw [e1, h1]
      simp only [ok_bind]
      rw [h2]
      simp only [ok_bind]
      rw [e2, ← List.length_append, h3]
      simp [Nat.add_assoc]
    · cases hr

/-! ## From what is sent to what is expected -/

theorem getItem_ok {b : BlockData} {n x} : b.getItem n = .ok x ↔ ∃ vd, b.vars.get? n = some vd ∧ vd.data = x := by
  simp only [BlockData.getItem, BlockData.getVariable, Dict.get, bind_ok, Except.ok.injEq]
  constructor
  · rintro ⟨vd, h1, h2⟩
    split at h1
    · cases h1; exact ⟨_, by assumption, h2⟩
    · cases h1
  · rintro ⟨vd, h1, h2⟩
    exact ⟨vd, by rw [h1], h2⟩

theorem getBlock_ok {m : Message} {n l} : m.getBlock n = .ok l ↔ m.blocks.get? n = some l := by
  simp only [Message.getBlock, Dict.get]
  split
  · rename_i h; rw [h]; simp
  · rename_i h; rw [h]; simp

theorem getBlock_error {m : Message} {n} : m.getBlock n = .error .keyError ↔ m.blocks.get? n = none := by
  simp only [Message.getBlock, Dict.get]
  split
  · rename_i h; rw [h]; simp
  · rename_i h; rw [h]; simp

theorem expVars_of (rt : Runtime) (b : BlockData) : ∀ {vs : List TVar},
    (∀ v ∈ vs, ∃ x y, b.getItem v.name = .ok x ∧ receivedAs rt v x = some y) → ∃ ds, expVars rt b vs = some ds
  | [], _ => ⟨[], rfl⟩
  | v :: vs, h => by
    obtain ⟨x, y, h1, h2⟩ := h v List.mem_cons_self
    obtain ⟨vd, h3, rfl⟩ := getItem_ok.mp h1
    obtain ⟨ds, hds⟩ := expVars_of rt b (vs := vs) (fun v hv => h v (List.mem_cons_of_mem _ hv))
    exact ⟨{ name := v.name, data := y, varType := some v.type } :: ds, by simp only [expVars, expVar, h3, h2, hds, Option.bind_eq_bind, Option.bind_some]⟩

theorem expInst_of (rt : Runtime) (tb : TBlock) : ∀ {l : List BlockData} (i : Nat),
    (∀ b ∈ l, ∃ ds, expVars rt b tb.vars = some ds) → ∃ r, expInst rt tb i l = some r
  | [], _, _ => ⟨[], rfl⟩
  | b :: l, i, h => by
    obtain ⟨ds, hds⟩ := h b List.mem_cons_self
    obtain ⟨r, hr⟩ := expInst_of rt tb (l := l) (i + 1) (fun b hb => h b (List.mem_cons_of_mem _ hb))
    exact ⟨recvBlock tb.name i ds :: r, by simp only [expInst, hds, hr, Option.bind_eq_bind, Option.bind_some]⟩

theorem expBlocks_of (rt : Runtime) (m : Message) : ∀ {tbs : List TBlock},
    (∀ tb ∈ tbs, ∃ l, m.getBlock tb.name = .ok l ∧ CountOk tb l.length ∧
      ∀ b ∈ l, ∀ v ∈ tb.vars, ∃ x y, b.getItem v.name = .ok x ∧ receivedAs rt v x = some y) →
    ∃ rs, expBlocks rt m tbs = some rs
  | [], _ => ⟨[], rfl⟩
  | tb :: tbs, h => by
    obtain ⟨l, h1, h2, h3⟩ := h tb List.mem_cons_self
    obtain ⟨rs, hrs⟩ := expBlocks_of rt m (tbs := tbs) (fun b hb => h b (List.mem_cons_of_mem _ hb))
    obtain ⟨r, hr⟩ := expInst_of rt tb (l := l) 0 (fun b hb => expVars_of rt b (h3 b hb))
    exact ⟨r :: rs, by simp only [expBlocks, getBlock_ok.mp h1, expBlock, if_pos h2, hr, hrs, Option.bind_eq_bind,
      Option.bind_some]⟩

theorem expVars_names {rt b} : ∀ {vs ds}, expVars rt b vs = some ds → ds.map (·.name) = vs.map (·.name)
  | [], ds, h => by cases h; rfl
  | v :: vs, ds, h => by
    simp only [expVars, Option.bind_eq_bind, Option.bind_eq_some_iff, Option.some.injEq] at h
    obtain ⟨d, hd, ds', hds, rfl⟩ := h
    obtain ⟨vd, y, _, _, rfl⟩ := expVar_some hd
    simp [expVars_names hds]

theorem expVars_mem {rt b} : ∀ {vs ds}, expVars rt b vs = some ds → ∀ v ∈ vs, ∃ d ∈ ds, expVar rt b v = some d
  | [], ds, h => by intro v hv; cases hv
  | v :: vs, ds, h => by
    simp only [expVars, Option.bind_eq_bind, Option.bind_eq_some_iff, Option.some.injEq] at h
    obtain ⟨d, hd, ds', hds, rfl⟩ := h
    intro w hw
    simp only [List.mem_cons] at hw
    rcases hw with rfl | hw
    · exact ⟨d, List.mem_cons_self, hd⟩
    · obtain ⟨e, he, h2⟩ := expVars_mem hds w hw
      exact ⟨e, List.mem_cons_of_mem _ he, h2⟩

theorem expInst_get {rt tb} : ∀ {l : List BlockData} {i r}, expInst rt tb i l = some r →
    r.length = l.length ∧ ∀ k b, l[k]? = some b →
      ∃ ds, expVars rt b tb.vars = some ds ∧ r[k]? = some (recvBlock tb.name (i + k) ds)
  | [], i, r, h => by
    cases h
    exact ⟨rfl, fun k b hb => by simp at hb⟩
  | b :: l, i, r, h => by
    simp only [expInst, Option.bind_eq_bind, Option.bind_eq_some_iff, Option.some.injEq] at h
    obtain ⟨ds, hd, r', hr, rfl⟩ := h
    obtain ⟨h1, h2⟩ := expInst_get hr
    refine ⟨by simp [h1], ?_⟩
    intro k b' hb
    cases k with
    | zero =>
      simp only [List.getElem?_cons_zero, Option.some.injEq] at hb
      subst hb
      exact ⟨ds, hd, rfl⟩
    | succ k =>
      simp only [List.getElem?_cons_succ] at hb
      obtain ⟨ds', h3, h4⟩ := h2 k b' hb
      refine ⟨ds', h3, ?_⟩
      rw [List.getElem?_cons_succ, h4]
      rw [show i + 1 + k = i + (k + 1) by omega]

theorem expInst_name {rt tb} {l : List BlockData} {i r} (h : expInst rt tb i l = some r) : ∀ b ∈ r, b.name = tb.name := by
  induction l generalizing i r with
  | nil => cases h; intro b hb; cases hb
  | cons b l ih =>
    simp only [expInst, Option.bind_eq_bind, Option.bind_eq_some_iff, Option.some.injEq] at h
    obtain ⟨ds, hd, r', hr, rfl⟩ := h
    intro b' hb
    simp only [List.mem_cons] at hb
    rcases hb with rfl | hb
    · exact foldl_addVariable_name _ _
    · exact ih hr b' hb

theorem expBlocks_filter_other {rt m} : ∀ {tbs rs}, expBlocks rt m tbs = some rs → ∀ n, (∀ tb ∈ tbs, tb.name ≠ n) →
    rs.flatten.filter (fun b => b.name = n) = []
  | [], rs, h, n, _ => by cases h; rfl
  | tb :: tbs, rs, h, n, hn => by
    simp only [expBlocks, Option.bind_eq_bind, Option.bind_eq_some_iff, Option.some.injEq] at h
    obtain ⟨l, hl, r, hr, rs', hrs, rfl⟩ := h
    unfold expBlock at hr
    split at hr
    · rw [List.flatten_cons, List.filter_append, expBlocks_filter_other hrs n (fun tb h => hn tb (List.mem_cons_of_mem _ h)),
        List.append_nil, List.filter_eq_nil_iff]
      intro b hb
      rw [expInst_name hr b hb]
      have := hn tb List.mem_cons_self
      simpa using this
    · cases hr

theorem expBlocks_filter {rt m} : ∀ {tbs : List TBlock} {rs}, (tbs.map (·.name)).Nodup → expBlocks rt m tbs = some rs →
    ∀ tb ∈ tbs, ∃ l r, m.blocks.get? tb.name = some l ∧ CountOk tb l.length ∧ expInst rt tb 0 l = some r ∧
      rs.flatten.filter (fun b => b.name = tb.name) = r
  | [], rs, _, h => by intro tb h; cases h
  | tb :: tbs, rs, hnd, h => by
    simp only [expBlocks, Option.bind_eq_bind, Option.bind_eq_some_iff, Option.some.injEq] at h
    obtain ⟨l, hl, r, hr, rs', hrs, rfl⟩ := h
    simp only [List.map_cons, List.nodup_cons] at hnd
    unfold expBlock at hr
    split at hr
    · rename_i hc
      intro tb' htb
      simp only [List.mem_cons] at htb
      rcases htb with rfl | htb
      · refine ⟨l, r, hl, hc, hr, ?_⟩
        rw [List.flatten_cons, List.filter_append, expBlocks_filter_other hrs _ (by
          intro tb hmem e
          exact hnd.1 (List.mem_map.mpr ⟨tb, hmem, e⟩)), List.append_nil, List.filter_eq_self]
        intro b hb
        simp [expInst_name hr b hb]
      · obtain ⟨l', r', h1, h2, h3, h4⟩ := expBlocks_filter hnd.2 hrs tb' htb
        refine ⟨l', r', h1, h2, h3, ?_⟩
        rw [List.flatten_cons, List.filter_append, h4]
        have : r.filter (fun b => b.name = tb'.name) = [] := by
          rw [List.filter_eq_nil_iff]
          intro b hb
          rw [expInst_name hr b hb]
          have : tb.name ≠ tb'.name := fun e => hnd.1 (List.mem_map.mpr ⟨tb', htb, e.symm⟩)
          simpa using this
        rw [this, List.nil_append]
    · cases hr

/-- The received message has the content that was sent. -/
theorem sameContent_of {rt : Runtime} {t : Template} {m m' : Message} (hwf : WFTemplate t) (hname : m.name = t.name)
    {rs} (h : expBlocks rt m t.blocks = some rs) (hm' : m'.blocks = rs.flatten.foldl addBlock [])
    (hn' : m'.name = t.name) : SameContent rt t m m' := by
  have hget : ∀ n, m'.blocks.get? n = if rs.flatten.filter (fun b => b.name = n) = [] then none
      else some (rs.flatten.filter (fun b => b.name = n)) := by
    intro n
    rw [hm', get?_foldl_addBlock]
    simp [Dict.get?]
  constructor
  · rw [hn', hname]
  · intro tb htb he
    obtain ⟨l, r, h1, _, h3, h4⟩ := expBlocks_filter hwf.blockNames h tb htb
    rw [getBlock_ok.mp he] at h1; cases h1
    cases h3
    rw [getBlock_error, hget, if_pos h4]
  · intro tb htb l hl hne
    obtain ⟨l', r, h1, _, h3, h4⟩ := expBlocks_filter hwf.blockNames h tb htb
    rw [getBlock_ok.mp hl] at h1; cases h1
    obtain ⟨h5, h6⟩ := expInst_get h3
    have hr : r ≠ [] := by
      intro e; rw [e] at h5
      exact hne (List.eq_nil_of_length_eq_zero h5.symm)
    refine ⟨r, ?_, h5, ?_⟩
    · rw [getBlock_ok, hget, h4, if_neg hr]
    · intro i b hb
      obtain ⟨ds, h7, h8⟩ := h6 i b hb
      refine ⟨_, h8, foldl_addVariable_name _ _, ?_, ?_, ?_⟩
      · rw [recvBlock, foldl_addVariable_number]; simp
      · rw [recvBlock, foldl_addVariable_varList, expVars_names h7]; rfl
      · intro v hv x hx
        obtain ⟨d, hd, he⟩ := expVars_mem h7 v hv
        obtain ⟨vd, y, h9, h10, rfl⟩ := expVar_some he
        obtain ⟨vd', h11, rfl⟩ := getItem_ok.mp hx
        rw [h9] at h11; cases h11
        refine ⟨y, h10, getItem_ok.mpr ⟨{ name := v.name, data := y, varType := some v.type }, ?_, rfl⟩⟩
        have := get?_foldl_addVariable (ds := ds) (by rw [expVars_names h7]; exact hwf.varNames tb htb) hd
          { BlockData.new tb.name with number := 0 + i }
        exact this
  · intro n hn
    rw [getBlock_error, hget, if_pos (expBlocks_filter_other h n hn)]

end Pyogp
