import Verif.Proofs.MessageApi
import Verif.Model.Wiring
import Verif.Props.Templates

/-! # C49–C53, C67: message objects, message.xml, settings -/

namespace Pyogp
open Spec

/-! ## C49 -/

/-- **C49, blocks.** `Message(name, args…)[block]` is the list of the blocks of that name among the arguments, lists flattened, in order;
`KeyError` if there is none. -/
theorem C49_blocks (name : String) (args : List BlockArg) (block : String) :
    (Message.new name args).name = name ∧
    (Message.new name args).getBlock block =
      (if (flatArgs args).filter (fun b => b.name = block) = [] then .error .keyError
       else .ok ((flatArgs args).filter (fun b => b.name = block))) := by
  unfold Message.new
  rw [parseBlocks_flat]
  refine ⟨rfl, ?_⟩
  simp only [Message.getBlock, Dict.get, get?_foldl_addBlock]
  by_cases h : (flatArgs args).filter (fun b => b.name = block) = []
  · simp [h, Dict.get?]
  · simp [h, Dict.get?]

theorem filter_unique {kwargs : List (String × PyVal)} (hn : (kwargs.map (·.1)).Nodup) {var : String} {x : PyVal} (hx : (var, x) ∈ kwargs) :
    kwargs.filter (fun v => v.1 = var) = [(var, x)] := by
  induction kwargs with
  | nil => cases hx
  | cons p l ih =>
    rw [List.map_cons, List.nodup_cons] at hn
    rcases List.mem_cons.mp hx with rfl | hx
    · have : l.filter (fun v => v.1 = var) = [] := List.filter_eq_nil_iff.mpr (fun v hv => by
        simp only [decide_eq_true_eq]
        rintro rfl
        exact hn.1 (List.mem_map.mpr ⟨v, hv, rfl⟩))
      simp [this]
    · have hp : p.1 ≠ var := by
        rintro rfl
        exact hn.1 (List.mem_map.mpr ⟨_, hx, rfl⟩)
      simp [hp, ih hn.2 hx]

/-- **C49, values.** `Block(name, var = value, …)[var]` is the value given; `KeyError` for other variables. -/
theorem C49_values (name : String) (kwargs : List (String × PyVal)) (hn : (kwargs.map (·.1)).Nodup) (var : String) :
    (Block.mk' name kwargs).name = name ∧ (Block.mk' name kwargs).varList = kwargs.map (·.1) ∧
    (∀ x, (var, x) ∈ kwargs → (Block.mk' name kwargs).getItem var = .ok x) ∧
    (var ∉ kwargs.map (·.1) → (Block.mk' name kwargs).getItem var = .error .keyError) := by
  refine ⟨mk'_name name kwargs, ?_, ?_, ?_⟩
  · rw [mk'_foldl, foldl_addVariable_varList]; simp [BlockData.new]
  · intro x hx
    rw [mk'_lastValue]
    have : lastValue kwargs var = some x := by
      unfold lastValue
      rw [filter_unique hn hx]
      rfl
    rw [this]
  · intro hx
    rw [mk'_lastValue]
    have : lastValue kwargs var = none := by
      unfold lastValue
      have hf : kwargs.filter (fun v => v.1 = var) = [] := List.filter_eq_nil_iff.mpr (fun v hv => by
        simp only [decide_eq_true_eq]
        rintro rfl
        exact hx (List.mem_map.mpr ⟨v, hv, rfl⟩))
      rw [hf]; rfl
    rw [this]

/-- **C49, the whole message.** A message made of blocks declared one by one: the instances of every block name are the declared ones, in order,
and `msg[block][i][var]` is the value given. -/
theorem C49_message (name : String) (bs : Declaration) (block : String) :
    (bs.instances block = [] → (Message.new name (bs.map (fun b => .one (Block.mk' b.1 b.2)))).getBlock block = .error .keyError) ∧
    (bs.instances block ≠ [] → ∃ l, (Message.new name (bs.map (fun b => .one (Block.mk' b.1 b.2)))).getBlock block = .ok l ∧
      l.length = (bs.instances block).length ∧
      ∀ (i : Nat) (b : BlockData) (vs : List (String × PyVal)), l[i]? = some b → (bs.instances block)[i]? = some vs →
        ∀ var, b.getItem var = match lastValue vs var with | some x => .ok x | none => .error .keyError) := by
  have hflat : flatArgs (bs.map (fun b => .one (Block.mk' b.1 b.2))) = bs.map (fun b => Block.mk' b.1 b.2) := by
    induction bs with
    | nil => rfl
    | cons b bs ih => rw [List.map_cons, flatArgs, ih, List.map_cons]
  have h := (C49_blocks name (bs.map (fun b => .one (Block.mk' b.1 b.2))) block).2
  rw [hflat, filter_mk'] at h
  constructor
  · intro h0; rw [h, h0]; rfl
  · intro h0
    refine ⟨(bs.instances block).map (fun vs => Block.mk' block vs), ?_, by simp, ?_⟩
    · rw [h, if_neg (by simpa using h0)]
    · intro i b vs hb hvs var
      rw [List.getElem?_map, hvs] at hb
      cases hb
      exact mk'_lastValue block vs var

/-- **C49, builder.** Whatever a `LLSDMessageBuilder` was used for before, declaring a message block by block and building it gives, for every
block name, one map per declared instance, in order, with the values given (`C49_message` for the same declaration), and the number of block names. -/
theorem C49_builder (b : Builder) (name : String) (bs : Declaration) :
    ∃ (b' b'' : Builder) (d : Dict String (List VarMap)), b.run (.newMessage name :: builderOps bs) = .ok b' ∧
      b'.buildMessage = .ok ((d, d.length), b'') ∧ b''.built = true ∧
      ∀ block, (bs.instances block = [] → d.get? block = none) ∧
        (bs.instances block ≠ [] → ∃ l, d.get? block = some l ∧ l.length = (bs.instances block).length ∧
          ∀ (i : Nat) (m : VarMap) (vs : List (String × PyVal)), l[i]? = some m → (bs.instances block)[i]? = some vs →
            ∀ var, m.get? var = lastValue vs var) := by
  obtain ⟨b', h1, h2⟩ := run_builderOps bs (b.newMessage name) name [] rfl
  refine ⟨b', { b' with built := true },
    ((((bs.map (fun x => Block.mk' x.1 x.2)).foldl addBlock []).map (·.2)).flatten.foldl buildInstance []), h1, ?_, rfl, ?_⟩
  · simp only [Builder.buildMessage, h2]
  · intro block
    have hok : BlocksOk ((bs.map (fun x => Block.mk' x.1 x.2)).foldl addBlock []) := BlocksOk.nil.foldl
    have hfilter := hok.filter block
    rw [get?_foldl_addBlock, filter_mk'] at hfilter
    rw [get?_foldl_buildInstance, hfilter]
    constructor
    · intro h0
      simp [h0, Dict.get?]
    · intro h0
      have hne : ¬ (bs.instances block).map (fun vs => Block.mk' block vs) = [] := by simpa using h0
      refine ⟨(bs.instances block).map (fun vs => blockMap (Block.mk' block vs)), ?_, by simp, ?_⟩
      · simp only [if_neg hne, Option.getD_some]
        simp [Dict.get?, h0, Function.comp_def]
      · intro i m vs hm hvs var
        rw [List.getElem?_map, hvs] at hm
        cases hm
        rw [blockMap_get? (varsOk_mk' block vs), mk'_get?]

/-- Adding data after `new_message` without `next_block` loses it silently (a block of the previous message gets it). -/
theorem C49_builder_stale (v : PyVal) :
    ∃ b, Builder.run {} [.newMessage "A", .nextBlock "X", .newMessage "B", .addData "V" v] = .ok b ∧ b.msg = some ("B", []) := ⟨_, rfl, rfl⟩

/-- `Message.get_var` never works: it looks for variables on the list of instances (`AttributeError`; `KeyError` if there is no such block). -/
theorem C49_get_var_fails (m : Message) (block var : String) :
    m.getVar block var = .error (if m.blocks.get? block = none then .keyError else .attributeError) := by
  unfold Message.getVar Dict.get
  cases m.blocks.get? block <;> rfl

def demoDeclaration : Declaration :=
  [("AgentData", [("ID", .num (.int 1))]), ("Item", [("X", .num (.int 2)), ("Y", .str [65])]), ("Item", [("X", .num (.int 3)), ("Y", .str [])])]

example : demoDeclaration.instances "Item" = [[("X", .num (.int 2)), ("Y", .str [65])], [("X", .num (.int 3)), ("Y", .str [])]] := by decide +kernel

/-! ## C50 -/

/-- A message whose blocks were built by the library (`Message`, `Block`, `add_block`, `add_variable`). -/
structure Built (m : Message) : Prop where
  blocks : BlocksOk m.blocks
  vars : ∀ k l, (k, l) ∈ m.blocks → ∀ b ∈ l, BlockOk b

theorem built_new (name : String) (args : List BlockArg) (h : ∀ b ∈ flatArgs args, BlockOk b) : Built (Message.new name args) := by
  unfold Message.new
  rw [parseBlocks_flat]
  refine ⟨BlocksOk.nil.foldl, ?_⟩
  have : ∀ (l : List BlockData) (d : Dict String (List BlockData)), (∀ b ∈ l, BlockOk b) → (∀ k x, (k, x) ∈ d → ∀ b ∈ x, BlockOk b) →
      ∀ k x, (k, x) ∈ l.foldl addBlock d → ∀ b ∈ x, BlockOk b := by
    intro l
    induction l with
    | nil => intro d _ hd; exact hd
    | cons c l ih =>
      intro d hl hd
      refine ih _ (fun b hb => hl b (List.mem_cons_of_mem _ hb)) ?_
      intro k x hm b hb
      unfold addBlock at hm
      split at hm
      · rcases mem_set hm with hm | hm
        · cases hm
          rw [List.mem_singleton] at hb
          rw [hb]; exact hl c List.mem_cons_self
        · exact hd k x hm b hb
      · rename_i l0 hl0
        rcases mem_set hm with hm | hm
        · cases hm
          rcases List.mem_append.mp hb with hb | hb
          · exact hd _ _ (Dict.mem_of_get? hl0) b hb
          · rw [List.mem_singleton] at hb
            rw [hb]; exact hl c List.mem_cons_self
        · exact hd k x hm b hb
  exact this _ _ h (by intro k x hm; cases hm)

/-- **C50.** What `to_dict` does: one map per block name, that of the **last** instance. -/
theorem C50_last_instance (m : Message) (h : Built m) : ∃ body, m.toDict = .ok (m.name, body) ∧
    (∀ n, m.getBlock n = .error .keyError → body.get? n = none) ∧
    ∀ n l, m.getBlock n = .ok l → ∃ vm, body.get? n = some [vm] ∧ ∃ hne, ∀ k,
      vm.get? k = match (l.getLast hne).getItem k with | .ok x => some x | .error _ => none := by
  obtain ⟨r, h1, h2, h3⟩ := toDictLoop_ok m.blocks h.blocks h.vars none [] (by intro k _; rfl)
  refine ⟨r, by unfold Message.toDict; rw [h1]; rfl, ?_, ?_⟩
  · intro n hn
    have : m.blocks.get? n = none := by
      unfold Message.getBlock Dict.get at hn
      cases hg : m.blocks.get? n with
      | none => rfl
      | some l => rw [hg] at hn; cases hn
    rw [h2 n this]; rfl
  · intro n l hn
    have : m.blocks.get? n = some l := by
      unfold Message.getBlock Dict.get at hn
      cases hg : m.blocks.get? n with
      | none => rw [hg] at hn; cases hn
      | some l' => rw [hg] at hn; cases hn; rfl
    obtain ⟨vm, h4, hne, h5⟩ := h3 n l this
    refine ⟨vm, h4, hne, fun k => ?_⟩
    rw [h5 k, getItem_of_get?]
    cases (l.getLast hne).vars.get? k <;> rfl

/-- **C50, consequence:** where every block occurs once, the map of each block is the map of its instance. -/
theorem C50_single_instances (m : Message) (h : Built m) (h1 : ∀ n l, m.getBlock n = .ok l → l.length = 1) :
    ∃ body, m.toDict = .ok (m.name, body) ∧ (∀ n, m.getBlock n = .error .keyError → body.get? n = none) ∧
      ∀ n l, m.getBlock n = .ok l → ∃ vms, body.get? n = some vms ∧ vms.length = l.length ∧
        ∀ (i : Nat) (b : BlockData) (vm : VarMap), l[i]? = some b → vms[i]? = some vm → ∀ k,
          vm.get? k = match b.getItem k with | .ok x => some x | .error _ => none := by
  obtain ⟨body, h2, h3, h4⟩ := C50_last_instance m h
  refine ⟨body, h2, h3, fun n l hl => ?_⟩
  obtain ⟨vm, h5, hne, h6⟩ := h4 n l hl
  have hlen := h1 n l hl
  match l, hlen with
  | [b], _ =>
    refine ⟨[vm], h5, rfl, ?_⟩
    intro i b' vm' hb hvm
    cases i with
    | zero => cases hb; cases hvm; exact h6
    | succ i => simp at hb

/-- **C50, exception:** a message with two instances of a block shows only the second one. -/
theorem C50_earlier_instances_missing : ∃ m : Message, Built m ∧ m.getBlock "Item" = .ok [Block.mk' "Item" [("X", .num (.int 2))], Block.mk' "Item" [("X", .num (.int 3))]] ∧
    m.toDict = .ok ("M", [("Item", [[("X", .num (.int 3))]])]) :=
  ⟨Message.new "M" [.many [Block.mk' "Item" [("X", .num (.int 2))], Block.mk' "Item" [("X", .num (.int 3))]]],
    built_new _ _ (by
      intro b hb
      simp only [flatArgs, List.append_nil, List.mem_cons, List.not_mem_nil, or_false] at hb
      rcases hb with rfl | rfl <;> exact blockOk_mk' _ _), rfl, rfl⟩

/-! ## C51 -/

/-- **C51, entries with a flavor.** Names absent from message.xml and flavor `template` are allowed, other flavors are not. -/
theorem C51_answers (x : DotXml) (name : String) (h : x.get? name ≠ some none) :
    ∃ b, validateUdpMsg x name = .ok b ∧ (b = true ↔ x.get? name = none ∨ x.get? name = some (some "template")) := by
  unfold validateUdpMsg
  split
  · exact ⟨true, rfl, by simp_all⟩
  · rename_i hx; exact absurd hx h
  · rename_i fl hx
    split
    · rename_i hfl; subst hfl; exact ⟨true, rfl, by simp [hx]⟩
    · rename_i hfl; exact ⟨false, rfl, by simp [hx, hfl]⟩

/-- **C51, exception.** It raises exactly for entries without flavor. -/
theorem C51_flavorless_raises (x : DotXml) (name : String) :
    (validateUdpMsg x name = .error .keyError ↔ x.get? name = some none) ∧ ∀ e, validateUdpMsg x name = .error e → e = .keyError := by
  have key : ∀ e, validateUdpMsg x name = .error e → e = .keyError ∧ x.get? name = some none := by
    intro e he
    unfold validateUdpMsg at he
    split at he
    · cases he
    · cases he; exact ⟨rfl, by assumption⟩
    · split at he <;> cases he
  exact ⟨⟨fun h => (key _ h).2, fun h => by unfold validateUdpMsg; rw [h]⟩, fun e he => (key e he).1⟩

/-- **C51, embedded message.xml.** It answers for every message of the embedded template, but raises for four of its own names, and no others. -/
theorem C51_embedded : (∀ t ∈ Embedded.all_templates, ∃ b, validateUdpMsg Embedded.messageXml t.name = .ok b) ∧
    ∀ name, validateUdpMsg Embedded.messageXml name = .error .keyError ↔
      name ∈ ["avatarnotesrequest", "avatarclassifiedsrequest", "avatarpicksrequest", "pickinforequest"] := by
  refine ⟨fun t ht => ?_, fun name => ?_⟩
  · obtain ⟨b, hb, _⟩ := C51_answers Embedded.messageXml t.name (Embedded.flavors t ht)
    exact ⟨b, hb⟩
  · constructor
    · intro h
      have hx := (C51_flavorless_raises Embedded.messageXml name).1.mp h
      have h1 : name ∈ (Embedded.messageXml.filter (fun e => e.2.isNone)).map (·.1) :=
        List.mem_map.mpr ⟨(name, none), List.mem_filter.mpr ⟨Dict.mem_of_get? hx, rfl⟩, rfl⟩
      have he : (Embedded.messageXml.filter (fun e => e.2.isNone)).map (·.1) =
        ["avatarnotesrequest", "avatarclassifiedsrequest", "avatarpicksrequest", "pickinforequest"] := by decide +kernel
      rwa [he] at h1
    · intro h
      simp only [List.mem_cons, List.not_mem_nil, or_false] at h
      rcases h with rfl | rfl | rfl | rfl <;> decide +kernel

/-- **C51, the messages banned from UDP.** Of the messages of the embedded template, the embedded message.xml bans exactly these seventeen from UDP. -/
theorem C51_banned (t : Template) (ht : t ∈ Embedded.all_templates) :
    validateUdpMsg Embedded.messageXml t.name = .ok false ↔
      t.name ∈ ["PlacesReply", "DirLandReply", "ParcelObjectOwnersReply", "TeleportFinish", "TeleportFailed", "CrossedRegion", "EnableSimulator",
        "GodKickUser", "ParcelProperties", "ScriptRunningReply", "RoutedMoneyBalanceReply", "StartGroupProposal", "GroupProposalBallot",
        "AgentGroupDataUpdate", "AgentDropGroup", "RpcScriptRequestInboundForward", "LandStatReply"] := by
  constructor
  · intro h
    obtain ⟨b, hb, hiff⟩ := C51_answers Embedded.messageXml t.name (Embedded.flavors t ht)
    rw [hb] at h
    cases h
    have hn : ¬ (Embedded.messageXml.get? t.name = none ∨ Embedded.messageXml.get? t.name = some (some "template")) := fun h => by
      have := hiff.mpr h; cases this
    have h1 : t.name ∈ (Embedded.messageXml.filter (fun e => decide (e.2 ≠ some "template" ∧ e.2 ≠ none))).map (·.1) := by
      cases hx : Embedded.messageXml.get? t.name with
      | none => exact absurd (.inl hx) hn
      | some fl =>
        refine List.mem_map.mpr ⟨(t.name, fl), List.mem_filter.mpr ⟨Dict.mem_of_get? hx, ?_⟩, rfl⟩
        have hfl : fl ≠ none := fun h => Embedded.flavors t ht (h ▸ hx)
        exact decide_eq_true ⟨fun h => hn (.inr (h ▸ hx)), hfl⟩
    exact Embedded.banned t ht h1
  · intro h
    simp only [List.mem_cons, List.not_mem_nil, or_false] at h
    rcases h with h | h | h | h | h | h | h | h | h | h | h | h | h | h | h | h | h <;> rw [h] <;> decide +kernel

/-! ## C52, C67 -/

/-- **C52, the parsers themselves.** A serializer and a deserializer that are given a message.xml use it. -/
theorem C52_parsers (i : Installation) (x : DotXml) (settings : Settings) (handler : Option (List String)) :
    (∀ env, serializerInit i none (some x) = .ok env → env.xml = x ∧
      ∀ m fl, x.get? m.name = some (some fl) → fl ≠ "template" → ∀ t, env.dict.getTemplate m.name = some t → t.name = m.name → serialize env m = .ok none) ∧
    (∀ env, (deserializerInit i handler settings none (some x)).1 = .ok env → env.xml = x) := by
  constructor
  · intro env h
    simp only [serializerInit, serializerDict] at h
    cases hd : templateDictOfFile i.rt i.template with
    | error e => rw [hd] at h; cases h
    | ok d =>
      rw [hd] at h
      cases h
      refine ⟨rfl, ?_⟩
      intro m fl hx hfl t ht hname
      have hx' : Dict.get? x t.name = some (some fl) := by rw [hname]; exact hx
      simp only [serialize, ht, validateUdpMsg, Option.getD_some, hx', hfl, if_false]
      rfl
  · intro env h
    simp only [deserializerInit] at h
    cases hd : templateDictOfFile i.rt i.template with
    | error e => rw [hd] at h; cases h
    | ok d => rw [hd] at h; cases h; rfl

/-- **C52, `UDPDispatcher` and `MessageManager`:** a custom message.xml never reaches the parsers. -/
theorem C52_ignored (i : Installation) (settings : Option Settings) (handler : Option (List String)) (template : Option FileHandle) (x : DotXml) :
    (∀ p, dispatcherInit i settings handler template (some x) = .ok p → p.ser.xml = i.xml ∧ p.deser.xml = i.xml ∧
      ∃ p', dispatcherInit i settings handler template none = .ok p' ∧ p'.ser = p.ser ∧ p'.deser = p.deser) ∧
    (∀ p own, managerParsers i settings handler template (some x) = .ok (p, own) → p.ser.xml = i.xml ∧ p.deser.xml = i.xml ∧
      managerParsers i settings handler template none = .ok (p, i.xml)) := by
  have hser : ∀ t env, serializerInit i t none = .ok env → env.xml = i.xml := by
    intro t env h
    simp only [serializerInit, bind_ok, Except.ok.injEq] at h
    obtain ⟨d, _, rfl⟩ := h
    rfl
  have hdes : ∀ n s t env, (deserializerInit i n s t none).1 = .ok env → env.xml = i.xml := by
    intro n s t env h
    simp only [deserializerInit, bind_ok, Except.ok.injEq] at h
    obtain ⟨d, _, rfl⟩ := h
    rfl
  have hdisp : ∀ s n t y p, dispatcherInit i s n t y = .ok p → p.ser.xml = i.xml ∧ p.deser.xml = i.xml ∧
      ∃ p', dispatcherInit i s n t none = .ok p' ∧ p'.ser = p.ser ∧ p'.deser = p.deser := by
    intro s n t y p h
    simp only [dispatcherInit, bind_ok, Except.ok.injEq] at h ⊢
    obtain ⟨names, h1, de, h2, se, h3, rfl⟩ := h
    exact ⟨hser _ _ h3, hdes _ _ _ _ h2, _, ⟨names, h1, de, h2, se, h3, rfl⟩, rfl, rfl⟩
  refine ⟨fun p h => hdisp _ _ _ _ _ h, ?_⟩
  intro p own h
  simp only [managerParsers, bind_ok, Except.ok.injEq] at h ⊢
  obtain ⟨names, h1, p', h2, h3⟩ := h
  cases h3
  obtain ⟨h4, h5, _⟩ := hdisp _ _ _ _ _ h2
  exact ⟨h4, h5, names, h1, p, h2, rfl⟩

/-- **C67, receiving:** a deserializer, a dispatcher and a manager that are given a template file parse with it, and cannot be constructed if it cannot be read. -/
theorem C67_receiving (i : Installation) (settings : Option Settings) (handler : Option (List String)) (f : FileHandle) (x : Option DotXml) :
    (∀ s env, (deserializerInit i handler s (some f) x).1 = .ok env → templateDictOfFile i.rt f.lines = .ok env.dict) ∧
    (∀ s e, templateDictOfFile i.rt f.lines = .error e → (deserializerInit i handler s (some f) x).1 = .error e) ∧
    (∀ p, dispatcherInit i settings handler (some f) x = .ok p → templateDictOfFile i.rt f.lines = .ok p.deser.dict) ∧
    ∀ p, managerParsers i settings handler (some f) x = .ok p → templateDictOfFile i.rt f.lines = .ok p.1.deser.dict := by
  have h1 : ∀ n s y env, (deserializerInit i n s (some f) y).1 = .ok env → templateDictOfFile i.rt f.lines = .ok env.dict := by
    intro n s y env h
    simp only [deserializerInit, templateDictParsed, bind_ok, Except.ok.injEq] at h
    obtain ⟨d, h1, rfl⟩ := h
    exact h1
  have h2 : ∀ s n y p, dispatcherInit i s n (some f) y = .ok p → templateDictOfFile i.rt f.lines = .ok p.deser.dict := by
    intro s n y p h
    simp only [dispatcherInit, bind_ok, Except.ok.injEq] at h
    obtain ⟨names, _, de, h2, se, _, rfl⟩ := h
    exact h1 _ _ _ _ h2
  refine ⟨fun s env h => h1 _ _ _ _ h, ?_, fun p h => h2 _ _ _ _ h, ?_⟩
  · intro s e h
    simp only [deserializerInit, templateDictParsed, h]
    rfl
  · intro p h
    simp only [managerParsers, bind_ok, Except.ok.injEq] at h
    obtain ⟨names, _, q, h3, rfl⟩ := h
    exact h2 _ _ _ _ h3

/-- **C67, sending:** a dispatcher or manager that is given a template file cannot send any message: `AttributeError`. -/
theorem C67_sending_fails (i : Installation) (settings : Option Settings) (handler : Option (List String)) (f : FileHandle) (x : Option DotXml) (m : Message) :
    (∀ p, dispatcherInit i settings handler (some f) x = .ok p → serialize p.ser m = .error .attributeError) ∧
    ∀ p, managerParsers i settings handler (some f) x = .ok p → serialize p.1.ser m = .error .attributeError := by
  have h1 : ∀ s n y p, dispatcherInit i s n (some f) y = .ok p → serialize p.ser m = .error .attributeError := by
    intro s n y p h
    simp only [dispatcherInit, bind_ok, Except.ok.injEq] at h
    obtain ⟨names, h1, de, h2, se, h3, rfl⟩ := h
    simp only [deserializerInit, templateDictParsed, serializerInit, serializerDict, templateDictOfLines, Nat.lt_irrefl, if_false, bind_ok, Except.ok.injEq] at h3
    obtain ⟨d, rfl, rfl⟩ := h3
    rfl
  refine ⟨fun p h => h1 _ _ _ _ h, fun p h => ?_⟩
  simp only [managerParsers, bind_ok, Except.ok.injEq] at h
  obtain ⟨names, _, q, h3, rfl⟩ := h
  exact h1 _ _ _ _ h3

/-- **C67, a serializer alone:** given a template file that was not read yet, its constructor raises `AttributeError`. -/
theorem C67_serializer_fails (i : Installation) (l : List Char) (ls : List (List Char)) (x : Option DotXml) :
    serializerInit i (some ⟨l :: ls, 0⟩) x = .error .attributeError := by
  simp [serializerInit, serializerDict, templateDictOfLines, bind, Except.bind]

/-- Such dispatchers exist: the sample file of C47, read on Python 2.6. -/
example (q : Runtime) (hq : q.ver = .v26) : ∃ p, dispatcherInit ⟨q, [], []⟩ none none (some ⟨sampleFile.drop 12, 0⟩) none = .ok p := by
  have h : ∃ d, templateDictOfFile q (sampleFile.drop 12) = .ok d := by
    have h1 : parseTemplateFile .v26 (sampleFile.drop 12) =
        .ok [⟨"Ping", .fixed, 247, [255, 255, 255, 247], some .trusted, some .unencoded, some .udpDeprecated, []⟩] := by kernel_rfl
    obtain ⟨d, hd, _⟩ := build_lookup q [⟨"Ping", .fixed, 247, [], some .trusted, some .unencoded, some .udpDeprecated, []⟩]
      (by simp) (by simp) (by intro t ht; rw [List.mem_singleton] at ht; subst ht; exact (by decide : (247 : Nat) < 256))
    exact ⟨d, (templateDictOfFile_eq (by rw [hq]; exact h1) rfl).trans hd⟩
  obtain ⟨d, hd⟩ := h
  simp only [dispatcherInit, deserializerInit, templateDictParsed, serializerInit, serializerDict, templateDictOfLines, hd, Option.getD_none]
  exact ⟨_, rfl⟩

/-! ## C97 -/

/-- **C97, no handler.** With packet handling switched off and no message handler given, neither a dispatcher nor a message manager can be made:
`AttributeError`, whatever else is given. -/
theorem C97_needs_handler (i : Installation) (settings : Settings) (h : settings.HANDLE_PACKETS = false) (template : Option FileHandle) (xml : Option DotXml) :
    dispatcherInit i (some settings) none template xml = .error .attributeError ∧
    managerParsers i (some settings) none template xml = .error .attributeError := by
  simp [dispatcherInit, managerParsers, handlerNames, h, bind, Except.bind]

/-- **C97, otherwise** it can be made exactly if its template file (the embedded one if none is given) can be read; then received datagrams are
parsed with the templates of that file, a message counts as handled if it is registered with the message handler given (none is, with a new one),
and unhandled messages are left unparsed exactly if the settings say so. -/
theorem C97_made (i : Installation) (settings : Option Settings) (handler : Option (List String)) (template : Option FileHandle) (xml : Option DotXml)
    (h : handler ≠ none ∨ (settings.getD Settings.new).HANDLE_PACKETS = true) :
    (∀ e, templateDictOfFile i.rt ((template.map (·.lines)).getD i.template) = .error e →
      dispatcherInit i settings handler template xml = .error e ∧ managerParsers i settings handler template xml = .error e) ∧
    (∀ d, templateDictOfFile i.rt ((template.map (·.lines)).getD i.template) = .ok d →
      ∃ p, dispatcherInit i settings handler template xml = .ok p ∧
        managerParsers i settings handler template xml = .ok ({ p with xml := i.xml }, xml.getD i.xml) ∧
        p.deser = ⟨i.rt, d, i.xml, some (handler.getD []), (settings.getD Settings.new).ENABLE_DEFERRED_PACKET_PARSING⟩ ∧
        (template = none → p.ser = ⟨i.rt, d, i.xml⟩)) := by
  have hn : handlerNames (settings.getD Settings.new) handler = .ok (handler.getD []) := by
    cases handler with
    | some names => rfl
    | none =>
      have h' : (settings.getD Settings.new).HANDLE_PACKETS = true := h.resolve_left (fun hh => hh rfl)
      simp [handlerNames, h']
  have hn' : handlerNames (settings.getD Settings.new) (some (handler.getD [])) = .ok (handler.getD []) := rfl
  constructor
  · intro e he
    cases template with
    | none =>
      simp only [Option.map_none, Option.getD_none] at he
      simp [dispatcherInit, managerParsers, hn, hn', deserializerInit, he, bind, Except.bind]
    | some f =>
      simp only [Option.map_some, Option.getD_some] at he
      simp [dispatcherInit, managerParsers, hn, hn', deserializerInit, templateDictParsed, he, bind, Except.bind]
  · intro d hd
    cases template with
    | none =>
      simp only [Option.map_none, Option.getD_none] at hd
      simp [dispatcherInit, managerParsers, hn, hn', deserializerInit, serializerInit, serializerDict, hd, bind, Except.bind]
    | some f =>
      simp only [Option.map_some, Option.getD_some] at hd
      simp [dispatcherInit, managerParsers, hn, hn', deserializerInit, serializerInit, serializerDict, templateDictParsed, templateDictOfLines, hd, bind,
        Except.bind]

/-- Example: with the default settings the condition holds and unhandled messages are left unparsed. -/
example : (Settings.new).HANDLE_PACKETS = true ∧ (Settings.new).ENABLE_DEFERRED_PACKET_PARSING = true := by decide

/-! ## C53 -/

/-- **C53.** With `quiet_logging`, every logging flag is off and spam filtering is on, whatever else is requested; the flags that are not about
logging do not depend on the logging options at all. -/
theorem C53_quiet_overrides (quiet spammy logTests : Bool) :
    (quiet = true →
      let s := Settings.new quiet spammy logTests
      s.LOG_VERBOSE = false ∧ s.ENABLE_BYTES_TO_HEX_LOGGING = false ∧ s.ENABLE_CAPS_LOGGING = false ∧ s.ENABLE_CAPS_LLSD_LOGGING = false ∧
      s.ENABLE_EQ_LOGGING = false ∧ s.ENABLE_UDP_LOGGING = false ∧ s.ENABLE_OBJECT_LOGGING = false ∧ s.LOG_SKIPPED_PACKETS = false ∧
      s.ENABLE_HOST_LOGGING = false ∧ s.LOG_COROUTINE_SPAWNS = false ∧ s.PROXY_LOGGING = false ∧ s.DISABLE_SPAMMERS = true) ∧
    (let s := Settings.new quiet spammy logTests
     let s₀ := Settings.new false false true
     s.HANDLE_PACKETS = s₀.HANDLE_PACKETS ∧ s.HANDLE_OUTGOING_PACKETS = s₀.HANDLE_OUTGOING_PACKETS ∧
     s.ENABLE_DEFERRED_PACKET_PARSING = s₀.ENABLE_DEFERRED_PACKET_PARSING ∧ s.ENABLE_REGION_EVENT_QUEUE = s₀.ENABLE_REGION_EVENT_QUEUE ∧
     s.REGION_EVENT_QUEUE_POLL_INTERVAL = s₀.REGION_EVENT_QUEUE_POLL_INTERVAL ∧ s.UDP_SPAMMERS = s₀.UDP_SPAMMERS ∧
     s.ENABLE_LOGGING_IN_TESTS = some logTests) := by
  cases quiet <;> cases spammy <;> cases logTests <;> decide

/-- Without `quiet_logging`, `spammy_logging` adds hex and LLSD dumps and turns the filter off. -/
theorem C53_spammy (logTests : Bool) :
    let s := Settings.new false true logTests
    s.ENABLE_BYTES_TO_HEX_LOGGING = true ∧ s.ENABLE_CAPS_LLSD_LOGGING = true ∧ s.DISABLE_SPAMMERS = false ∧ s.LOG_VERBOSE = true := by
  cases logTests <;> decide

end Pyogp
