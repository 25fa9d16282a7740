/- When the Kotlin and Swift generators succeed. -/
import Verif.Proofs.Indent
import Verif.Spec.WellFormed
import Verif.Spec.Mobile
namespace TPB
open Spec

/-- A computation that can panic succeeds. -/
def Ok {α : Type} (m : Except Panic α) : Prop := ∃ a, m = .ok a

theorem and_true_iff (p : Prop) : p ∧ True ↔ p := by simp

theorem ok_ok {α : Type} (a : α) : Ok (.ok a : Except Panic α) := ⟨a, rfl⟩

theorem ok_bind_iff {α β : Type} {m : Except Panic α} {f : α → Except Panic β} (p : Prop) (h : ∀ a, Ok (f a) ↔ p) :
    Ok (m >>= f) ↔ Ok m ∧ p := by
  cases m with
  | ok a =>
    show Ok (f a) ↔ _
    rw [h a]
    simp [Ok]
  | error e =>
    constructor
    · rintro ⟨a, h⟩; cases h
    · rintro ⟨⟨a, h⟩, _⟩; cases h

theorem ok_bind_same_iff {w : Writer} {m : Except Panic Writer} {f : Writer → Except Panic Writer} (hm : Keeps w m)
    (p : Prop) (h : ∀ a, SameTabs w a → (Ok (f a) ↔ p)) : Ok (m >>= f) ↔ Ok m ∧ p := by
  cases m with
  | ok a =>
    show Ok (f a) ↔ _
    rw [h a hm]
    simp [Ok]
  | error e =>
    constructor
    · rintro ⟨a, h⟩; cases h
    · rintro ⟨⟨a, h⟩, _⟩; cases h

theorem ok_level_iff {v : Writer} {m : Except Panic Writer} {f : Writer → Except Panic Writer}
    (h : Keeps v.pushTab m) (p : Prop) (hf : ∀ a, Ok (f a) ↔ p) : Ok (m >>= fun u => popTabE u >>= f) ↔ Ok m ∧ p := by
  refine ok_bind_same_iff h p (fun u hu => ?_)
  have h1 : u.constTabs = v.constTabs + 1 := hu.1
  have e : popTabE u = .ok { u with constTabs := v.constTabs } := by simp [popTabE, Writer.popTab, h1]
  rw [e]
  exact hf _

theorem ok_pure_iff {α : Type} (a : α) : Ok (pure a : Except Panic α) ↔ True := ⟨fun _ => trivial, fun _ => ⟨a, rfl⟩⟩

theorem ok_writeE_iff {w : Writer} {s : Except Panic String} : Ok (KotlinGen.writeE w s) ↔ Ok s := by
  cases s with
  | ok s => simp [KotlinGen.writeE, Ok]
  | error e => simp [KotlinGen.writeE, Ok]

theorem ok_writelnE_iff {w : Writer} {s : Except Panic String} : Ok (SwiftGen.writelnE w s) ↔ Ok s := by
  cases s with
  | ok s => simp [SwiftGen.writelnE, Ok]
  | error e => simp [SwiftGen.writelnE, Ok]

theorem ok_around_iff {a b : String} {s : Except Panic String} : Ok (SwiftGen.around a s b) ↔ Ok s := by
  cases s with
  | ok s => simp [SwiftGen.around, Ok]
  | error e => simp [SwiftGen.around, Ok]

/-- Integer and float widths that the target languages have. -/
theorem typeName_cases (n : String) : (∃ i s, typeOfName n = .integer n i s ∧ (i = 1 ∨ i = 4 ∨ i = 8)) ∨
    (∃ i, typeOfName n = .number n i ∧ (i = 4 ∨ i = 8)) ∨ typeOfName n = .bool n ∨ typeOfName n = .char n ∨
    typeOfName n = .other n := by
  unfold typeOfName
  by_cases h : n ∈ builtinTypes.map (·.1)
  · simp only [builtinTypes, List.map_cons, List.map_nil, List.mem_cons, List.not_mem_nil, or_false] at h
    rcases h with h | h | h | h | h | h | h | h | h | h <;> subst h <;> simp [builtinTypes, List.lookup]
  · have : builtinTypes.lookup n = none := by
      rw [List.lookup_eq_none_iff]
      intro p hp
      have : n ≠ p.1 := fun e => h (e ▸ List.mem_map_of_mem hp)
      simpa using this
    simp [this]

namespace KotlinGen

theorem ok_typeIds {ts : List TypeId} (h : ∀ t ∈ ts, Ok (typeId t)) : Ok (typeIds ts) := by
  induction ts with
  | nil => exact ⟨[], by unfold typeIds; rfl⟩
  | cons t ts ih =>
    obtain ⟨s, hs⟩ := h t (by simp)
    obtain ⟨ss, hss⟩ := ih (fun t ht => h t (by simp [ht]))
    exact ⟨s :: ss, by unfold typeIds; simp [hs, hss]⟩

theorem ok_typeId {t : TypeId} (h : WFType t) : Ok (typeId t) := by
  induction h with
  | name n =>
    rcases typeName_cases n with ⟨i, s, e, h⟩ | ⟨i, e, h⟩ | e | e | e
    · rw [e]
      rcases h with h | h | h <;> subst h <;> cases s <;> simp [typeId, Ok]
    · rw [e]
      rcases h with h | h <;> subst h <;> simp [typeId, Ok]
    · rw [e]; simp [typeId, Ok]
    · rw [e]; simp [typeId, Ok]
    · rw [e]; unfold typeId; split <;> (try split) <;> exact ⟨_, rfl⟩
  | generic n as _ _ ih =>
    obtain ⟨ss, hss⟩ := ok_typeIds ih
    unfold typeId
    simp only [hss]
    split <;> exact ⟨_, rfl⟩

theorem ok_defaultValue {t : TypeId} (h : WFType t) : Ok (defaultValue t) := by
  cases h with
  | name n =>
    rcases typeName_cases n with ⟨i, s, e, h⟩ | ⟨i, e, h⟩ | e | e | e
    · rw [e]
      rcases h with h | h | h <;> subst h <;> cases s <;> simp [defaultValue, Ok]
    · rw [e]
      rcases h with h | h <;> subst h <;> simp [defaultValue, Ok]
    · rw [e]; simp [defaultValue, Ok]
    · rw [e]; simp [defaultValue, Ok]
    · rw [e]; simp only [defaultValue]; split <;> (try split) <;> exact ⟨_, rfl⟩
  | generic n as _ h =>
    obtain ⟨ss, hss⟩ := ok_typeIds (fun t ht => ok_typeId (h t ht))
    simp only [defaultValue, hss]
    split <;> exact ⟨_, rfl⟩

mutual
/-- Every type, constant and default value in a tree can be printed. -/
def fine (x : ExtF) : KIR → Prop
  | .gap => True
  | .id _ => True
  | .object _ body ext => fines x ext ∧ fines x body
  | .decl body _ => fine x body
  | .val _ _ type value => fine x type ∧ fineOpt x value
  | .type t => Ok (typeId t)
  | .constValue t v => Ok (KotlinGen.constValue x t v)
  | .defaultValue t => Ok (KotlinGen.defaultValue t)
  | .cls _ _ ext fields body => fines x fields ∧ fines x ext ∧ fines x body
  | .interface _ _ body => fines x body
  | .companion body => fines x body
  | .funInline _ args ret body => fines x args ∧ fine x ret ∧ fine x body
  | .fn _ args ret body => fines x args ∧ fine x ret ∧ fines x body
  | .call _ args => fines x args
  | .assign _ v => fine x v
def fineOpt (x : ExtF) : Option KIR → Prop
  | none => True
  | some v => fine x v
def fines (x : ExtF) : List KIR → Prop
  | [] => True
  | t :: ts => fine x t ∧ fines x ts
end

theorem fines_iff (x : ExtF) (ts : List KIR) : fines x ts ↔ ∀ t ∈ ts, fine x t := by
  induction ts with
  | nil => simp [fines]
  | cons t ts ih => simp [fines, ih]

theorem nil_of_isEmpty {α : Type} {l : List α} (h : l.isEmpty = true) : l = [] := by simpa using h

mutual
theorem ok_token_iff (x : ExtF) (t : KIR) (w : Writer) : Ok (writeToken x w t) ↔ fine x t := by
  match t with
  | .gap => unfold writeToken fine; exact ok_pure_iff _
  | .id s => unfold writeToken fine; exact ok_pure_iff _
  | .object id body ext =>
    unfold writeToken fine
    refine (ok_bind_iff (fines x body) (fun w1 => ?_)).trans (and_congr_left' ?_)
    · split
      · rename_i h; rw [nil_of_isEmpty h]; unfold fines; exact ok_pure_iff _
      · exact (ok_level_iff (keeps_tokens x body none _) True (fun a => ok_pure_iff _)).trans
          ((and_true_iff _).trans (ok_tokens_iff x body none _))
    · split
      · rename_i h; rw [nil_of_isEmpty h]; unfold fines; exact ok_pure_iff _
      · exact ok_separated_iff x ", " ext _
  | .decl body sep =>
    unfold writeToken fine
    exact (ok_bind_iff True (fun w1 => ok_pure_iff _)).trans ((and_true_iff _).trans (ok_token_iff x body _))
  | .val id isConst type value =>
    unfold writeToken fine
    refine (ok_bind_iff (fineOpt x value) (fun w1 => ?_)).trans (and_congr_left' (ok_token_iff x type _))
    match value with
    | some v => unfold fineOpt; exact ok_token_iff x v _
    | none => unfold fineOpt; exact ok_pure_iff _
  | .type t => unfold writeToken fine; exact ok_writeE_iff
  | .constValue t v => unfold writeToken fine; exact ok_writeE_iff
  | .defaultValue t => unfold writeToken fine; exact ok_writeE_iff
  | .cls id isData ext fields body =>
    unfold writeToken fine
    refine (ok_bind_iff (fines x ext ∧ fines x body) (fun w1 => ?_)).trans (and_congr_left' ?_)
    · refine (ok_bind_iff (fines x body) (fun w1 => ?_)).trans (and_congr_left' ?_)
      · split
        · rename_i h; rw [nil_of_isEmpty h]; unfold fines; exact ok_pure_iff _
        · exact (ok_level_iff (keeps_tokens x body none _) True (fun a => ok_pure_iff _)).trans
            ((and_true_iff _).trans (ok_tokens_iff x body none _))
      · split
        · rename_i h; rw [nil_of_isEmpty h]; unfold fines; exact ok_pure_iff _
        · exact ok_separated_iff x ", " ext _
    · split
      · rename_i h; rw [nil_of_isEmpty h]; unfold fines; exact ok_pure_iff _
      · exact (ok_level_iff (keeps_tokens x fields none _) True (fun a => ok_pure_iff _)).trans
          ((and_true_iff _).trans (ok_tokens_iff x fields none _))
  | .interface id isSealed body =>
    unfold writeToken fine
    exact (ok_level_iff (keeps_tokens x body none _) True (fun a => ok_pure_iff _)).trans
      ((and_true_iff _).trans (ok_tokens_iff x body none _))
  | .companion body =>
    unfold writeToken fine
    exact (ok_level_iff (keeps_tokens x body none _) True (fun a => ok_pure_iff _)).trans
      ((and_true_iff _).trans (ok_tokens_iff x body none _))
  | .funInline id args ret body =>
    unfold writeToken fine
    refine (ok_bind_iff (fine x ret ∧ fine x body) (fun w1 => ?_)).trans (and_congr_left' ?_)
    · exact (ok_bind_iff (fine x body) (fun w1 => (ok_bind_iff True (fun w2 => ok_pure_iff _)).trans
        ((and_true_iff _).trans (ok_token_iff x body _)))).trans (and_congr_left' (ok_token_iff x ret _))
    · split
      · rename_i h; rw [nil_of_isEmpty h]; unfold fines; exact ok_pure_iff _
      · exact (ok_level_iff (keeps_tokens x args none _) True (fun a => ok_pure_iff _)).trans
          ((and_true_iff _).trans (ok_tokens_iff x args none _))
  | .fn id args ret body =>
    unfold writeToken fine
    refine (ok_bind_iff (fine x ret ∧ fines x body) (fun w1 => ?_)).trans (and_congr_left' ?_)
    · exact (ok_bind_iff (fines x body) (fun w1 => (ok_level_iff (keeps_tokens x body none _) True
        (fun w2 => ok_pure_iff _)).trans
        ((and_true_iff _).trans (ok_tokens_iff x body none _)))).trans (and_congr_left' (ok_token_iff x ret _))
    · split
      · rename_i h; rw [nil_of_isEmpty h]; unfold fines; exact ok_pure_iff _
      · exact (ok_level_iff (keeps_tokens x args none _) True (fun a => ok_pure_iff _)).trans
          ((and_true_iff _).trans (ok_tokens_iff x args none _))
  | .call id args =>
    unfold writeToken fine
    simp only
    split
    · rename_i h; rw [nil_of_isEmpty h]; unfold fines; exact ok_pure_iff _
    · exact (ok_level_iff (keeps_tokens x args none _) True (fun a => ok_pure_iff _)).trans
        ((and_true_iff _).trans (ok_tokens_iff x args none _))
  | .assign id v => unfold writeToken fine; exact ok_token_iff x v _
theorem ok_tokens_iff (x : ExtF) (ts : List KIR) (last : Option String) (w : Writer) :
    Ok (writeTokens x last w ts) ↔ fines x ts := by
  match ts with
  | [] => unfold writeTokens fines; exact ok_pure_iff _
  | t :: ts =>
    unfold writeTokens fines
    exact (ok_bind_iff (fines x ts) (fun w1 => ok_tokens_iff x ts _ _)).trans
      (and_congr_left' (ok_token_iff x t _))
theorem ok_separated_iff (x : ExtF) (sep : String) (ts : List KIR) (w : Writer) :
    Ok (writeSeparated x sep w ts) ↔ fines x ts := by
  match ts with
  | [] => unfold writeSeparated fines; exact ok_pure_iff _
  | t :: ts =>
    unfold writeSeparated fines
    exact (ok_bind_iff (fines x ts) (fun w1 => ok_separated_iff x sep ts _)).trans
      (and_congr_left' (ok_token_iff x t _))
end

/-! ### The sections -/

theorem ok_stringify_iff (x : ExtF) (ts : List KIR) : Ok (stringify x ts) ↔ fines x ts := by
  rw [← ok_tokens_iff x ts none Writer.default]
  unfold stringify
  cases writeTokens x none Writer.default ts with
  | ok w => simp [Ok]
  | error e => simp [Ok]

theorem fine_param {x : ExtF} (n : String) {t : TypeId} (h : WFType t) : fine x (param n t) := by
  simp only [param, fine, fineOpt, and_true]
  exact ok_typeId h

theorem fines_tupleParams {x : ExtF} (i : Nat) (vs : List TupleField) (h : ∀ v ∈ vs, WFType v.typeId) :
    fines x (tupleParams i vs) := by
  induction vs generalizing i with
  | nil => simp [tupleParams, fines]
  | cons v vs ih =>
    simp only [tupleParams, fines]
    exact ⟨fine_param _ (h v (by simp)), ih _ (fun v hv => h v (by simp [hv]))⟩

theorem fine_enumCase {x : ExtF} (e : String) {i : EnumItem} (h : WFItem i) : fine x (enumCase e i) := by
  cases i with
  | empty p n => simp [enumCase, fine, fines]
  | tuple p n vs =>
    simp only [enumCase, fine, fines, and_true]
    exact fines_tupleParams 0 vs h.2
  | struct p n fs =>
    simp only [enumCase, fine, fines, and_true]
    rw [fines_iff]
    intro t ht
    obtain ⟨f, hf, rfl⟩ := List.mem_map.1 ht
    exact fine_param _ (h.2 f hf)

theorem fine_enumDefault {x : ExtF} (e : String) {i : EnumItem} (h : WFItem i) : fine x (enumDefault e i) := by
  cases i with
  | empty p n => simp [enumDefault, fine]
  | tuple p n vs =>
    simp only [enumDefault, fine]
    rw [fines_iff]
    intro t ht
    obtain ⟨f, hf, rfl⟩ := List.mem_map.1 ht
    simp only [defaultArg, fine]
    exact ok_defaultValue (h.2 f hf)
  | struct p n fs =>
    simp only [enumDefault, fine]
    rw [fines_iff]
    intro t ht
    obtain ⟨f, hf, rfl⟩ := List.mem_map.1 ht
    simp only [namedDefaultArg, fine]
    exact ok_defaultValue (h.2 f hf)

theorem ok_other (n : String) : Ok (typeId (.other n)) := by
  unfold typeId; split <;> (try split) <;> exact ⟨_, rfl⟩

theorem fine_structModel {x : ExtF} {n : StructNode} (h : WFFields n.fields) : fine x (structModel x n) := by
  simp only [structModel, fine, fines, and_true, true_and]
  refine ⟨?_, ok_other _, ?_⟩
  · rw [fines_iff]
    intro t ht
    obtain ⟨f, hf, rfl⟩ := List.mem_map.1 ht
    exact fine_param _ (h.2 f hf)
  · rw [fines_iff]
    intro t ht
    obtain ⟨f, hf, rfl⟩ := List.mem_map.1 ht
    simp only [namedDefaultArg, fine]
    exact ok_defaultValue (h.2 f hf)

theorem modelsItem_fine {x : ExtF} {k : Nat} {d : ASTNode} (h : WFDecl k d) :
    ∃ ts, modelsItem x d = .ok ts ∧ fines x ts := by
  cases d with
  | struct n => exact ⟨_, rfl, by simp only [fines, and_true]; exact fine_structModel h.1⟩
  | enum n =>
    obtain ⟨h1, _, h3⟩ := h
    match hi : n.items with
    | [] => exact absurd hi h1
    | i :: is =>
      refine ⟨_, by simp only [modelsItem, enumModel, enumInterface, hi]; rfl, ?_⟩
      simp only [fines, fine, and_true, true_and]
      refine ⟨⟨ok_other _, fine_enumDefault _ (h3 i (by simp [hi]))⟩, ?_⟩
      rw [fines_iff]
      intro t ht
      obtain ⟨j, hj, rfl⟩ := List.mem_map.1 ht
      exact fine_enumCase _ (h3 j (by rw [hi]; exact hj))
  | _ => exact ⟨[], rfl, by simp [fines]⟩

theorem modelTokens_fine {x : ExtF} {S : List ASTNode} (h : ∀ d ∈ S, ∃ k, WFDecl k d) :
    ∃ ts, modelTokens x S = .ok ts ∧ fines x ts := by
  induction S with
  | nil => exact ⟨[], rfl, by simp [fines]⟩
  | cons d S ih =>
    obtain ⟨k, hk⟩ := h d (by simp)
    obtain ⟨ts, h1, h2⟩ := modelsItem_fine (x := x) hk
    obtain ⟨us, h3, h4⟩ := ih (fun d hd => h d (by simp [hd]))
    refine ⟨ts ++ us, by simp [modelTokens, h1, h3], ?_⟩
    rw [fines_iff] at *
    intro t ht
    rcases List.mem_append.1 ht with ht | ht
    · exact h2 t ht
    · exact h4 t ht

theorem ok_models {x : ExtF} {S : List ASTNode} (h : ∀ d ∈ S, ∃ k, WFDecl k d) : Ok (models x S) := by
  obtain ⟨ts, h1, h2⟩ := modelTokens_fine (x := x) h
  unfold models
  simp only [h1]
  exact (ok_stringify_iff x ts).2 h2

/-! ### Constants -/

theorem ok_constValue_iff {x : ExtF} {t : TypeId} (v : ConstValue) (h : WFType t) :
    Ok (constValue x t v) ↔ LiteralFits t v.literal := by
  obtain ⟨l, vt⟩ := v
  cases h with
  | name n =>
    rcases typeName_cases n with ⟨i, s, e, h⟩ | ⟨i, e, h⟩ | e | e | e
    · rw [e]
      rcases h with h | h | h <;> subst h <;> cases s <;> cases l <;>
        simp [constValue, Ok, LiteralFits, literalPanic]
    · rw [e]
      rcases h with h | h <;> subst h <;> cases l <;>
        simp [constValue, Ok, LiteralFits, literalPanic] <;> split <;> simp
    · rw [e]; cases l <;> simp [constValue, Ok, LiteralFits, literalPanic]
    · rw [e]; cases l <;> simp [constValue, Ok, LiteralFits, literalPanic]
    · rw [e]
      cases l <;> simp [constValue, Ok, LiteralFits, literalPanic]
      by_cases h1 : n = "GroupAddress" <;> by_cases h2 : n = "CommandsBufferAddress" <;> simp [h1, h2]
  | generic n as _ h => cases l <;> simp [constValue, Ok, LiteralFits, literalPanic]

mutual
theorem fine_constItem_iff {x : ExtF} (path : List String) {i : ConstItem} (h : WFConstItem i) :
    fine x (constItem i) ↔ ∀ c ∈ itemConsts path i, LiteralFits c.type c.value := by
  match i with
  | .value n t v =>
    cases h with
    | value _ _ _ h1 h2 =>
      simp only [constItem, constDecl, fine, fineOpt, itemConsts, List.mem_singleton, forall_eq]
      rw [ok_constValue_iff v h1]
      exact ⟨fun h => h.2, fun h => ⟨ok_typeId h1, h⟩⟩
  | .node n is =>
    cases h with
    | node _ _ h1 =>
      simp only [constItem, fine, fines, true_and, itemConsts]
      exact fines_constItems_iff (path ++ [n]) is h1
theorem fines_constItems_iff {x : ExtF} (path : List String) (is : List ConstItem) (h : ∀ i ∈ is, WFConstItem i) :
    fines x (constItems is) ↔ ∀ c ∈ itemsConsts path is, LiteralFits c.type c.value := by
  match is with
  | [] => simp [constItems, fines, itemsConsts]
  | i :: is =>
    simp only [constItems, fines, itemsConsts, List.mem_append]
    rw [fine_constItem_iff path (h i (by simp)), fines_constItems_iff path is (fun j hj => h j (by simp [hj]))]
    constructor
    · rintro ⟨h1, h2⟩ c (hc | hc)
      · exact h1 c hc
      · exact h2 c hc
    · exact fun h => ⟨fun c hc => h c (.inl hc), fun c hc => h c (.inr hc)⟩
end

theorem ok_consts_iff {x : ExtF} {S : List ASTNode} (h : ∀ d ∈ S, ∃ k, WFDecl k d) :
    Ok (consts x S) ↔ ∀ c ∈ schemaConsts S, LiteralFits c.type c.value := by
  unfold consts
  rw [ok_stringify_iff, fines_iff]
  constructor
  · intro hf c hc
    obtain ⟨d, hd, hc⟩ := List.mem_flatMap.1 hc
    obtain ⟨k, hk⟩ := h d hd
    cases d with
    | const n =>
      have := hf _ (List.mem_flatMap.2 ⟨_, hd, List.mem_singleton.2 rfl⟩)
      simp only [fine, fines, true_and] at this
      exact (fines_constItems_iff [n.id] n.items hk).1 this c hc
    | _ => simp [declConsts] at hc
  · intro hf t ht
    obtain ⟨d, hd, ht⟩ := List.mem_flatMap.1 ht
    obtain ⟨k, hk⟩ := h d hd
    cases d with
    | const n =>
      simp only [constsItem, List.mem_singleton] at ht
      subst ht
      simp only [fine, fines, true_and]
      exact (fines_constItems_iff [n.id] n.items hk).2 (fun c hc => hf c (List.mem_flatMap.2 ⟨_, hd, hc⟩))
    | _ => simp [constsItem] at ht

end KotlinGen

namespace SwiftGen
open KotlinGen (nil_of_isEmpty)

theorem ok_typeIds {ts : List TypeId} (h : ∀ t ∈ ts, Ok (typeId t)) : Ok (typeIds ts) := by
  induction ts with
  | nil => exact ⟨[], by unfold typeIds; rfl⟩
  | cons t ts ih =>
    obtain ⟨s, hs⟩ := h t (by simp)
    obtain ⟨ss, hss⟩ := ih (fun t ht => h t (by simp [ht]))
    exact ⟨s :: ss, by unfold typeIds; simp [hs, hss]⟩

theorem ok_typeId {t : TypeId} (h : WFType t) : Ok (typeId t) := by
  induction h with
  | name n =>
    rcases typeName_cases n with ⟨i, s, e, h⟩ | ⟨i, e, h⟩ | e | e | e
    · rw [e]
      rcases h with h | h | h <;> subst h <;> cases s <;> simp [typeId, Ok]
    · rw [e]
      rcases h with h | h <;> subst h <;> simp [typeId, Ok]
    · rw [e]; simp [typeId, Ok]
    · rw [e]; simp [typeId, Ok]
    · rw [e]; unfold typeId; split <;> (try split) <;> exact ⟨_, rfl⟩
  | generic n as _ _ ih =>
    obtain ⟨ss, hss⟩ := ok_typeIds ih
    unfold typeId
    simp only [hss]
    split <;> exact ⟨_, rfl⟩

theorem ok_defaultValue {t : TypeId} (h : WFType t) : Ok (defaultValue t) := by
  cases h with
  | name n =>
    rcases typeName_cases n with ⟨i, s, e, h⟩ | ⟨i, e, h⟩ | e | e | e
    · rw [e]; simp [defaultValue, Ok]
    · rw [e]; simp [defaultValue, Ok]
    · rw [e]; simp [defaultValue, Ok]
    · rw [e]; simp [defaultValue, Ok]
    · rw [e]; simp only [defaultValue]; split <;> (try split) <;> exact ⟨_, rfl⟩
  | generic n as _ h =>
    obtain ⟨ss, hss⟩ := ok_typeIds (fun t ht => ok_typeId (h t ht))
    simp only [defaultValue, hss]
    split <;> exact ⟨_, rfl⟩

mutual
/-- Every type, constant and default value in a tree can be printed. -/
def fine (x : ExtF) : SIR → Prop
  | .struct _ body => fines x body
  | .enum _ body => fines x body
  | .enumCase _ params => fines x params
  | .enumCaseType _ t => Ok (typeId t)
  | .fieldAccess inst _ => fineOpt x inst
  | .constField id t v => Ok (constLine x id t v)
  | .field _ t => Ok (typeId t)
  | .method _ _ ret _ body => Ok (typeId ret) ∧ fines x body
  | .funArg _ _ _ => True
  | .ret body => fine x body
  | .newInstance t body => Ok (typeId t) ∧ fines x body
  | .assignNamed _ t value => fineOr x (defaultValue t) value
  | .assign _ t value => fineOr x (defaultValue t) value
  | .staticCall _ _ => True
  | .call _ args => fines x args
def fineOpt (x : ExtF) : Option SIR → Prop
  | none => True
  | some v => fine x v
def fineOr (x : ExtF) (d : Except Panic String) : Option SIR → Prop
  | none => Ok d
  | some v => fine x v
def fines (x : ExtF) : List SIR → Prop
  | [] => True
  | t :: ts => fine x t ∧ fines x ts
end

theorem fines_iff (x : ExtF) (ts : List SIR) : fines x ts ↔ ∀ t ∈ ts, fine x t := by
  induction ts with
  | nil => simp [fines]
  | cons t ts ih => simp [fines, ih]

mutual
theorem ok_token_iff (x : ExtF) (t : SIR) (w : Writer) : Ok (writeToken x w t) ↔ fine x t := by
  match t with
  | .struct id body =>
    unfold writeToken fine
    exact (ok_level_iff (keeps_tokens x body none _) True (fun a => ok_pure_iff _)).trans
      ((and_true_iff _).trans (ok_tokens_iff x body none _))
  | .enum id body =>
    unfold writeToken fine
    exact (ok_level_iff (keeps_tokens x body none _) True (fun a => ok_pure_iff _)).trans
      ((and_true_iff _).trans (ok_tokens_iff x body none _))
  | .constField id t v => unfold writeToken fine; exact ok_writelnE_iff
  | .field id t => unfold writeToken fine; exact ok_writelnE_iff.trans ok_around_iff
  | .method id isStatic ret args body =>
    unfold writeToken fine
    refine (ok_bind_iff (fines x body) (fun w1 => ?_)).trans (and_congr_left' ?_)
    · exact (ok_level_iff (keeps_tokens x body none _) True (fun a => ok_pure_iff _)).trans
        ((and_true_iff _).trans (ok_tokens_iff x body none _))
    · split <;> exact ok_writelnE_iff.trans ok_around_iff
  | .funArg _ _ _ => unfold writeToken fine; exact ok_pure_iff _
  | .ret body =>
    unfold writeToken fine
    exact (ok_bind_iff True (fun w1 => ok_pure_iff _)).trans ((and_true_iff _).trans (ok_token_iff x body _))
  | .newInstance t body =>
    unfold writeToken fine
    refine (ok_bind_iff (fines x body) (fun w1 => ?_)).trans (and_congr_left' ok_writeE_iff)
    split
    · rename_i h; rw [nil_of_isEmpty h]; unfold fines; exact ok_pure_iff _
    · exact (ok_level_iff (keeps_commas x body _) True (fun a => ok_pure_iff _)).trans
        ((and_true_iff _).trans (ok_commas_iff x body _))
  | .assignNamed id t value =>
    unfold writeToken fine
    match value with
    | some v => unfold fineOr; exact ok_token_iff x v _
    | none => unfold fineOr; exact ok_writeE_iff.trans ok_around_iff
  | .assign id t value =>
    unfold writeToken fine
    match value with
    | some v => unfold fineOr; exact ok_token_iff x v _
    | none => unfold fineOr; exact ok_writeE_iff
  | .staticCall _ _ => unfold writeToken fine; exact ok_pure_iff _
  | .call id args =>
    unfold writeToken fine
    simp only
    split
    · rename_i h; rw [nil_of_isEmpty h]; unfold fines; exact ok_pure_iff _
    · exact (ok_level_iff (keeps_commas x args _) True (fun a => ok_pure_iff _)).trans
        ((and_true_iff _).trans (ok_commas_iff x args _))
  | .enumCase id params =>
    unfold writeToken fine
    split
    · rename_i h; rw [nil_of_isEmpty h]; unfold fines; exact ok_pure_iff _
    · exact (ok_level_iff (keeps_commas x params _) True (fun a => ok_pure_iff _)).trans
        ((and_true_iff _).trans (ok_commas_iff x params _))
  | .enumCaseType id t =>
    unfold writeToken fine
    match id with
    | some id => exact ok_writeE_iff.trans ok_around_iff
    | none => exact ok_writeE_iff
  | .fieldAccess inst field =>
    unfold writeToken fine
    match inst with
    | some i =>
      unfold fineOpt
      exact (ok_bind_iff True (fun w1 => ok_pure_iff _)).trans ((and_true_iff _).trans (ok_token_iff x i _))
    | none => unfold fineOpt; exact ok_pure_iff _
theorem ok_tokens_iff (x : ExtF) (ts : List SIR) (last : Option String) (w : Writer) :
    Ok (writeTokens x last w ts) ↔ fines x ts := by
  match ts with
  | [] => unfold writeTokens fines; exact ok_pure_iff _
  | t :: ts =>
    unfold writeTokens fines
    exact (ok_bind_iff (fines x ts) (fun w1 => ok_tokens_iff x ts _ _)).trans
      (and_congr_left' (ok_token_iff x t _))
theorem ok_commas_iff (x : ExtF) (ts : List SIR) (w : Writer) : Ok (writeCommas x w ts) ↔ fines x ts := by
  match ts with
  | [] => unfold writeCommas fines; exact ok_pure_iff _
  | t :: ts =>
    unfold writeCommas fines
    exact (ok_bind_iff (fines x ts) (fun w1 => ok_commas_iff x ts _)).trans
      (and_congr_left' (ok_token_iff x t _))
end

/-! ### The sections -/

theorem ok_stringify_iff (x : ExtF) (ts : List SIR) : Ok (stringify x ts) ↔ fines x ts := by
  rw [← ok_tokens_iff x ts none Writer.default]
  unfold stringify
  cases writeTokens x none Writer.default ts with
  | ok w => simp [Ok]
  | error e => simp [Ok]

theorem fines_append (x : ExtF) (a b : List SIR) : fines x (a ++ b) ↔ fines x a ∧ fines x b := by
  rw [fines_iff, fines_iff, fines_iff]
  simp only [List.mem_append]
  constructor
  · exact fun h => ⟨fun t ht => h t (.inl ht), fun t ht => h t (.inr ht)⟩
  · rintro ⟨h1, h2⟩ t (h | h)
    · exact h1 t h
    · exact h2 t h

theorem fines_map {α : Type} (x : ExtF) (f : α → SIR) (l : List α) (h : ∀ a ∈ l, fine x (f a)) :
    fines x (l.map f) := by
  rw [fines_iff]
  intro t ht
  obtain ⟨a, ha, rfl⟩ := List.mem_map.1 ht
  exact h a ha

theorem fine_enumCase {x : ExtF} {i : EnumItem} (h : WFItem i) : fine x (enumCase i) := by
  cases i with
  | empty p n => simp [enumCase, caseParams, fine, fines]
  | tuple p n vs =>
    simp only [enumCase, caseParams, fine]
    exact fines_map x _ _ (fun v hv => by simp only [fine]; exact ok_typeId (h.2 v hv))
  | struct p n fs =>
    simp only [enumCase, caseParams, fine]
    exact fines_map x _ _ (fun v hv => by simp only [fine]; exact ok_typeId (h.2 v hv))

theorem fine_enumDefault {x : ExtF} {i : EnumItem} (h : WFItem i) : fine x (enumDefault x i) := by
  cases i with
  | empty p n => simp [enumDefault, fine, fineOpt]
  | tuple p n vs =>
    simp only [enumDefault, fine]
    exact fines_map x _ _ (fun v hv => by simp only [fine, fineOr]; exact ok_defaultValue (h.2 v hv))
  | struct p n fs =>
    simp only [enumDefault, fine]
    exact fines_map x _ _ (fun v hv => by simp only [fine, fineOr]; exact ok_defaultValue (h.2 v hv))

theorem ok_other (n : String) : Ok (typeId (.other n)) := by
  unfold typeId; split <;> (try split) <;> exact ⟨_, rfl⟩

theorem fine_structModel {x : ExtF} {n : StructNode} (h : WFFields n.fields) : fine x (structModel n) := by
  simp only [structModel, fine, fines_append, fines, and_true]
  refine ⟨?_, ok_other _, ok_other _, ?_⟩
  · exact fines_map x _ _ (fun v hv => by simp only [fine]; exact ok_typeId (h.2 v hv))
  · exact fines_map x _ _ (fun v hv => by simp only [fine, fineOr]; exact ok_defaultValue (h.2 v hv))

theorem modelsItem_fine {x : ExtF} {k : Nat} {d : ASTNode} (h : WFDecl k d) :
    ∃ ts, modelsItem x d = .ok ts ∧ fines x ts := by
  cases d with
  | struct n => exact ⟨_, rfl, by simp only [fines, and_true]; exact fine_structModel h.1⟩
  | enum n =>
    obtain ⟨h1, _, h3⟩ := h
    match hi : n.items with
    | [] => exact absurd hi h1
    | i :: is =>
      refine ⟨_, by simp only [modelsItem, enumModel, hi]; rfl, ?_⟩
      simp only [fines, fine, and_true, fines_append]
      refine ⟨?_, ok_other _, fine_enumDefault (h3 i (by simp [hi]))⟩
      exact fines_map x _ _ (fun j hj => fine_enumCase (h3 j (by rw [hi]; exact hj)))
  | _ => exact ⟨[], rfl, by simp [fines]⟩

theorem modelTokens_fine {x : ExtF} {S : List ASTNode} (h : ∀ d ∈ S, ∃ k, WFDecl k d) :
    ∃ ts, modelTokens x S = .ok ts ∧ fines x ts := by
  induction S with
  | nil => exact ⟨[], rfl, by simp [fines]⟩
  | cons d S ih =>
    obtain ⟨k, hk⟩ := h d (by simp)
    obtain ⟨ts, h1, h2⟩ := modelsItem_fine (x := x) hk
    obtain ⟨us, h3, h4⟩ := ih (fun d hd => h d (by simp [hd]))
    exact ⟨ts ++ us, by simp [modelTokens, h1, h3], (fines_append x ts us).2 ⟨h2, h4⟩⟩

theorem ok_models {x : ExtF} {S : List ASTNode} (h : ∀ d ∈ S, ∃ k, WFDecl k d) : Ok (models x S) := by
  obtain ⟨ts, h1, h2⟩ := modelTokens_fine (x := x) h
  unfold models
  simp only [h1]
  exact (ok_stringify_iff x ts).2 h2

/-! ### Constants -/

theorem ok_constValue_iff {x : ExtF} {t : TypeId} (v : ConstValue) (h : WFType t) :
    Ok (constValue x v t) ↔ LiteralFits t v.literal := by
  obtain ⟨l, vt⟩ := v
  cases h with
  | name n =>
    rcases typeName_cases n with ⟨i, s, e, h⟩ | ⟨i, e, h⟩ | e | e | e
    · rw [e]
      rcases h with h | h | h <;> subst h <;> cases s <;> cases l <;>
        simp [constValue, Ok, LiteralFits, KotlinGen.literalPanic]
    · rw [e]
      rcases h with h | h <;> subst h <;> cases l <;>
        simp [constValue, Ok, LiteralFits, KotlinGen.literalPanic] <;> split <;> simp
    · rw [e]; cases l <;> simp [constValue, Ok, LiteralFits, KotlinGen.literalPanic]
    · rw [e]; cases l <;> simp [constValue, Ok, LiteralFits, KotlinGen.literalPanic]
    · rw [e]
      cases l <;> simp [constValue, Ok, LiteralFits, KotlinGen.literalPanic]
      by_cases h1 : n = "GroupAddress" <;> by_cases h2 : n = "CommandsBufferAddress" <;> simp [h1, h2]
  | generic n as _ h => cases l <;> simp [constValue, Ok, LiteralFits, KotlinGen.literalPanic]

theorem ok_constLine_iff {x : ExtF} {t : TypeId} (n : String) (v : ConstValue) (h : WFType t) :
    Ok (constLine x n t v) ↔ LiteralFits t v.literal := by
  obtain ⟨s, hs⟩ := ok_typeId h
  unfold constLine
  simp only [hs, ok_around_iff]
  exact ok_constValue_iff v h

mutual
theorem fine_constItem_iff {x : ExtF} (path : List String) {i : ConstItem} (h : WFConstItem i) :
    fine x (constItem i) ↔ ∀ c ∈ itemConsts path i, LiteralFits c.type c.value := by
  match i with
  | .value n t v =>
    cases h with
    | value _ _ _ h1 h2 =>
      simp only [constItem, fine, itemConsts, List.mem_singleton, forall_eq]
      exact ok_constLine_iff n v h1
  | .node n is =>
    cases h with
    | node _ _ h1 =>
      simp only [constItem, fine, itemConsts]
      exact fines_constItems_iff (path ++ [n]) is h1
theorem fines_constItems_iff {x : ExtF} (path : List String) (is : List ConstItem) (h : ∀ i ∈ is, WFConstItem i) :
    fines x (constItems is) ↔ ∀ c ∈ itemsConsts path is, LiteralFits c.type c.value := by
  match is with
  | [] => simp [constItems, fines, itemsConsts]
  | i :: is =>
    simp only [constItems, fines, itemsConsts, List.mem_append]
    rw [fine_constItem_iff path (h i (by simp)), fines_constItems_iff path is (fun j hj => h j (by simp [hj]))]
    constructor
    · rintro ⟨h1, h2⟩ c (hc | hc)
      · exact h1 c hc
      · exact h2 c hc
    · exact fun h => ⟨fun c hc => h c (.inl hc), fun c hc => h c (.inr hc)⟩
end

theorem ok_consts_iff {x : ExtF} {S : List ASTNode} (h : ∀ d ∈ S, ∃ k, WFDecl k d) :
    Ok (consts x S) ↔ ∀ c ∈ schemaConsts S, LiteralFits c.type c.value := by
  unfold consts
  rw [ok_stringify_iff, fines_iff]
  constructor
  · intro hf c hc
    obtain ⟨d, hd, hc⟩ := List.mem_flatMap.1 hc
    obtain ⟨k, hk⟩ := h d hd
    cases d with
    | const n =>
      have := hf _ (List.mem_flatMap.2 ⟨_, hd, List.mem_singleton.2 rfl⟩)
      simp only [fine] at this
      exact (fines_constItems_iff [n.id] n.items hk).1 this c hc
    | _ => simp [declConsts] at hc
  · intro hf t ht
    obtain ⟨d, hd, ht⟩ := List.mem_flatMap.1 ht
    obtain ⟨k, hk⟩ := h d hd
    cases d with
    | const n =>
      simp only [constsItem, List.mem_singleton] at ht
      subst ht
      simp only [fine]
      exact (fines_constItems_iff [n.id] n.items hk).2 (fun c hc => hf c (List.mem_flatMap.2 ⟨_, hd, hc⟩))
    | _ => simp [constsItem] at ht

end SwiftGen
end TPB
