import Verif.Proofs.Transmit
import Verif.Proofs.FieldConverse
import Verif.Spec.Serialize

namespace Pyogp
open Spec

/-! ## Inversion of successful serialization -/

theorem serializeVars_inv {rt b} : ∀ {vs : List TVar} {bs}, serializeVars rt b vs = .ok bs →
    ∀ v ∈ vs, ∃ s, serializeVar rt b v = .ok s
  | [], _, _, v, hv => by cases hv
  | w :: vs, bs, h, v, hv => by
    simp only [serializeVars, bind_ok] at h
    obtain ⟨a, ha, r, hr, _⟩ := h
    rcases List.mem_cons.mp hv with rfl | hv
    · exact ⟨a, ha⟩
    · exact serializeVars_inv hr v hv

theorem serializeInstances_inv {rt vs} : ∀ {l : List BlockData} {bs}, serializeInstances rt vs l = .ok bs →
    ∀ b ∈ l, ∃ s, serializeVars rt b vs = .ok s
  | [], _, _, b, hb => by cases hb
  | c :: l, bs, h, b, hb => by
    simp only [serializeInstances, bind_ok] at h
    obtain ⟨a, ha, r, hr, _⟩ := h
    rcases List.mem_cons.mp hb with rfl | hb
    · exact ⟨a, ha⟩
    · exact serializeInstances_inv hr b hb

theorem buildBlocks_inv {rt m} : ∀ {tbs : List TBlock} {bs}, buildBlocks rt m tbs = .ok bs →
    ∀ tb ∈ tbs, ∃ s, buildBlock rt tb m = .ok s
  | [], _, _, b, hb => by cases hb
  | c :: l, bs, h, b, hb => by
    simp only [buildBlocks, bind_ok] at h
    obtain ⟨a, ha, r, hr, _⟩ := h
    rcases List.mem_cons.mp hb with rfl | hb
    · exact ⟨a, ha⟩
    · exact buildBlocks_inv hr b hb

theorem buildBlock_inv {rt tb m bs} (h : buildBlock rt tb m = .ok bs) :
    ∃ l, m.getBlock tb.name = .ok l ∧ (tb.blockType = .multiple → l.length = tb.number) ∧
      (tb.blockType = .variable → ∃ c, structPack rt.ver .big .B l.length = .ok c) ∧
      ∀ b ∈ l, ∀ v ∈ tb.vars, ∃ s, serializeVar rt b v = .ok s := by
  simp only [buildBlock, bind_ok] at h
  obtain ⟨l, hl, h⟩ := h
  refine ⟨l, hl, ?_⟩
  split at h
  · cases h
  · rename_i hm
    have h' : ∃ c body, (tb.blockType = .variable → structPack rt.ver .big .B l.length = .ok c) ∧
        serializeInstances rt tb.vars l = .ok body := by
      split at h
      · simp only [bind_ok] at h
        obtain ⟨c, hc, body, hb, _⟩ := h
        exact ⟨c, body, fun _ => hc, hb⟩
      · simp only [bind_ok] at h
        rename_i hv
        obtain ⟨c, _, body, hb, _⟩ := h
        exact ⟨[], body, fun h => absurd h hv, hb⟩
    obtain ⟨c, body, hc, hb⟩ := h'
    refine ⟨fun ht => ?_, fun ht => ⟨c, hc ht⟩, fun b hb' v hv => ?_⟩
    · have : ¬ (tb.number ≠ l.length) := fun h => hm ⟨ht, h⟩
      simp only [Decidable.not_not] at this
      exact this.symm
    · obtain ⟨s, hs⟩ := serializeInstances_inv hb b hb'
      exact serializeVars_inv hs v hv

theorem serializeVar_inv {rt b v bs} (h : serializeVar rt b v = .ok bs) :
    ∃ x p, b.getItem v.name = .ok x ∧ packData rt x v.type = .ok p ∧
      (v.type = .variable → ∃ l, packVarLen rt v.size p.length = .ok l) := by
  simp only [serializeVar, bind_ok] at h
  obtain ⟨var, hv, p, hp, h⟩ := h
  refine ⟨var.data, p, ?_, hp, ?_⟩
  · simp only [BlockData.getItem, hv]; rfl
  · intro ht
    rw [if_pos ht] at h
    simp only [bind_ok] at h
    obtain ⟨l, hl, _⟩ := h
    exact ⟨l, hl⟩

theorem serialize_inv {env m dg} (h : serialize env m = .ok (some dg)) :
    ∃ t fl pid body, env.dict.getTemplate m.name = some t ∧ validateUdpMsg env.xml t.name = .ok true ∧
      packData env.rt (.num (.int m.sendFlags)) .u8 = .ok fl ∧
      packData env.rt (.num (.int m.packetId)) .s32 (some .big) = .ok pid ∧
      buildBlocks env.rt m t.blocks = .ok body := by
  unfold serialize at h
  split at h
  · cases h
  · rename_i t ht
    simp only [bind_ok] at h
    obtain ⟨al, hal, h⟩ := h
    cases al
    · simp at h
    · simp only [Bool.not_true, Bool.false_eq_true, if_false, bind_ok] at h
      obtain ⟨fl, hfl, pid, hpid, off, _, body, hbody, _⟩ := h
      exact ⟨t, fl, pid, body, ht, hal, hfl, hpid, hbody⟩

/-- On Python 2.7 a packed integer was in range. -/
theorem structPack_v27 {e f x b} (h : structPack .v27 e f x = .ok b) : f.lo ≤ x ∧ x < f.hi := by
  unfold structPack at h
  simp only at h
  split at h
  · assumption
  · cases h

theorem packVarLen_v27 {rt : Runtime} (hv : rt.ver = .v27) {size len l} (h : packVarLen rt size len = .ok l) :
    len < 256 ^ size := by
  unfold packVarLen at h
  split at h
  · rename_i hs; subst hs
    have h' : structPack rt.ver .big .B len = .ok l := h
    rw [hv] at h'
    have := (structPack_v27 h').2
    simp [IntFmt.hi, IntFmt.signed, IntFmt.size] at this
    omega
  · split at h
    · rename_i hs; subst hs
      have h' : structPack rt.ver .little .H len = .ok l := h
      rw [hv] at h'
      have := (structPack_v27 h').2
      simp [IntFmt.hi, IntFmt.signed, IntFmt.size] at this
      omega
    · split at h
      · rename_i hs; subst hs
        have h' : structPack rt.ver .little .I len = .ok l := h
        rw [hv] at h'
        have := (structPack_v27 h').2
        simp [IntFmt.hi, IntFmt.signed, IntFmt.size] at this
        omega
      · cases h

/-! ## Congruence -/

theorem serializeVar_congr {rt b₁ b₂ v} (h : b₁.getItem v.name = b₂.getItem v.name) :
    serializeVar rt b₁ v = serializeVar rt b₂ v := by
  have key : ∀ b, serializeVar rt b v = (do
      let x ← b.getItem v.name
      let data ← packData rt x v.type
      if v.type = .variable then
        let len ← packVarLen rt v.size data.length
        .ok (len ++ data)
      else .ok data) := by
    intro b
    simp only [serializeVar, BlockData.getItem]
    cases b.getVariable v.name <;> rfl
  rw [key, key, h]

theorem serializeVars_congr {rt b₁ b₂} : ∀ {vs : List TVar}, (∀ v ∈ vs, b₁.getItem v.name = b₂.getItem v.name) →
    serializeVars rt b₁ vs = serializeVars rt b₂ vs
  | [], _ => rfl
  | v :: vs, h => by
    simp only [serializeVars]
    rw [serializeVar_congr (h v List.mem_cons_self), serializeVars_congr (fun v hv => h v (List.mem_cons_of_mem _ hv))]

theorem serializeInstances_congr {rt vs} : ∀ {l₁ l₂ : List BlockData}, l₁.length = l₂.length →
    (∀ (i : Nat) (b₁ b₂ : BlockData), l₁[i]? = some b₁ → l₂[i]? = some b₂ →
      ∀ v ∈ vs, b₁.getItem v.name = b₂.getItem v.name) →
    serializeInstances rt vs l₁ = serializeInstances rt vs l₂
  | [], [], _, _ => rfl
  | [], _ :: _, h, _ => by simp at h
  | _ :: _, [], h, _ => by simp at h
  | b₁ :: l₁, b₂ :: l₂, hl, h => by
    simp only [serializeInstances]
    rw [serializeVars_congr (h 0 b₁ b₂ rfl rfl),
      serializeInstances_congr (by simpa using hl) (fun i c₁ c₂ h1 h2 => h (i + 1) c₁ c₂ (by simpa using h1) (by simpa using h2))]

theorem buildBlocks_congr {rt} {m₁ m₂ : Message} : ∀ {tbs : List TBlock},
    (∀ tb ∈ tbs, buildBlock rt tb m₁ = buildBlock rt tb m₂) → buildBlocks rt m₁ tbs = buildBlocks rt m₂ tbs
  | [], _ => rfl
  | tb :: tbs, h => by
    simp only [buildBlocks]
    rw [h tb List.mem_cons_self, buildBlocks_congr (fun tb htb => h tb (List.mem_cons_of_mem _ htb))]

theorem buildBlock_congr {rt t} {m₁ m₂ : Message} (h : AgreeOn t m₁ m₂) : ∀ tb ∈ t.blocks,
    buildBlock rt tb m₁ = buildBlock rt tb m₂ := by
  intro tb htb
  simp only [buildBlock]
  rcases h tb htb with ⟨h1, h2⟩ | ⟨l₁, l₂, h1, h2, hl, hv⟩
  · rw [h1, h2]
  · rw [h1, h2]
    simp only [ok_bind]
    rw [hl, serializeInstances_congr hl hv]

theorem serialize_congr {env : SerEnv} {m₁ m₂ : Message} (hn : m₁.name = m₂.name) (hf : m₁.sendFlags = m₂.sendFlags)
    (hp : m₁.packetId = m₂.packetId)
    (h : ∀ t, env.dict.getTemplate m₁.name = some t → AgreeOn t m₁ m₂) : serialize env m₁ = serialize env m₂ := by
  unfold serialize
  rw [← hn, ← hf, ← hp]
  cases ht : env.dict.getTemplate m₁.name with
  | none => rfl
  | some t =>
    simp only
    rw [buildBlocks_congr (buildBlock_congr (h t ht))]

/-! ## Messages built from arguments -/

theorem parseBlocks_eq (args : List BlockArg) : ∀ m : Message,
    m.parseBlocks args = { m with blocks := (argBlocks args).foldl addBlock m.blocks } := by
  have hfold : ∀ (l : List BlockData) (m : Message),
      l.foldl Message.addBlock m = { m with blocks := l.foldl addBlock m.blocks } := by
    intro l
    induction l with
    | nil => intro m; rfl
    | cons b l ih => intro m; rw [List.foldl_cons, ih]; rfl
  induction args with
  | nil => intro m; rfl
  | cons a args ih =>
    intro m
    cases a with
    | one b => simp only [Message.parseBlocks, ih, argBlocks, List.foldl_cons]; rfl
    | many l => simp only [Message.parseBlocks, ih, argBlocks, List.foldl_append, hfold]

theorem new_get? (name : String) (args : List BlockArg) (n : String) :
    (Message.new name args).blocks.get? n =
      if named n (argBlocks args) = [] then none else some (named n (argBlocks args)) := by
  rw [Message.new, parseBlocks_eq]
  simp only [named]
  rw [get?_foldl_addBlock]
  simp [Dict.get?]

theorem getBlock_congr {m₁ m₂ : Message} {n} (h : m₁.blocks.get? n = m₂.blocks.get? n) : m₁.getBlock n = m₂.getBlock n := by
  simp only [Message.getBlock, Dict.get, h]

theorem agreeOn_of_getBlock {t : Template} {m₁ m₂ : Message} (h : ∀ tb ∈ t.blocks, m₁.getBlock tb.name = m₂.getBlock tb.name) :
    AgreeOn t m₁ m₂ := by
  intro tb htb
  have he := h tb htb
  cases hg : m₁.blocks.get? tb.name with
  | none =>
    have := getBlock_error.mpr hg
    left; exact ⟨this, by rw [← he]; exact this⟩
  | some l =>
    have := getBlock_ok.mpr hg
    right
    refine ⟨l, l, this, by rw [← he]; exact this, rfl, ?_⟩
    intro i b₁ b₂ h1 h2 v _
    rw [h1] at h2; cases h2; rfl

theorem mk'_eq (name : String) (kw : List (String × PyVal)) :
    Block.mk' name kw = (kw.map (fun p => ({ name := p.1, data := p.2 } : VarData))).foldl BlockData.addVariable (BlockData.new name) := by
  rw [Block.mk', List.foldl_map]

theorem mk'_getItem {name : String} {kw : List (String × PyVal)} (hn : (kw.map (·.1)).Nodup) {k : String} {x : PyVal}
    (h : (k, x) ∈ kw) : (Block.mk' name kw).getItem k = .ok x := by
  rw [mk'_eq]
  apply getItem_ok.mpr
  refine ⟨{ name := k, data := x }, ?_, rfl⟩
  apply get?_foldl_addVariable (d := { name := k, data := x })
  · rw [List.map_map]; exact hn
  · exact List.mem_map.mpr ⟨(k, x), h, rfl⟩

theorem mk'_getItem_none {name : String} {kw : List (String × PyVal)} {k : String}
    (h : k ∉ kw.map (·.1)) : (Block.mk' name kw).getItem k = .error .keyError := by
  rw [mk'_eq]
  have : ((kw.map (fun p => ({ name := p.1, data := p.2 } : VarData))).foldl BlockData.addVariable (BlockData.new name)).vars.get? k
      = none := by
    rw [get?_foldl_addVariable_notin]
    · rfl
    · rw [List.map_map]; exact h
  simp only [BlockData.getItem, BlockData.getVariable, Dict.get, this]
  rfl

end Pyogp
