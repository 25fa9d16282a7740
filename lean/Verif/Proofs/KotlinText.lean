/- The text that the Kotlin generator emits for the models of a schema is the rendering of the syntax tree of
`Sem/Kotlin.lean`. -/
import Verif.Sem.Kotlin
namespace TPB

/-- A writer with standing indentation `n` and contents `r`. -/
def wTab (n : Nat) (r : String) : Writer := ⟨r, repeatStr " " 4, n⟩

theorem bind_ok {α β : Type} {m : Except Panic α} {f : α → Except Panic β} {b : β} (h : m >>= f = .ok b) :
    ∃ a, m = .ok a ∧ f a = .ok b := by
  cases m with
  | ok a => exact ⟨a, rfl, h⟩
  | error e => cases h

theorem wTab_write (n : Nat) (r s : String) : (wTab n r).write s = wTab n (r ++ s) := rfl
theorem wTab_newLine (n : Nat) (r : String) : (wTab n r).newLine = wTab n (r ++ "\n") := rfl
theorem wTab_push (n : Nat) (r : String) : (wTab n r).pushTab = wTab (n + 1) r := rfl
theorem wTab_tabs (n : Nat) (r : String) : (wTab n r).writeTabs = wTab n (r ++ repeatStr (repeatStr " " 4) n) := rfl
theorem wTab_pop (n : Nat) (r : String) : popTabE (wTab (n + 1) r) = .ok (wTab n r) := rfl
theorem wTab_writeln (n : Nat) (r s : String) : (wTab n r).writeln s = wTab n (r ++ linesText 4 [(n, s)]) := by
  simp [wTab, Writer.writeln, linesText, String.append_assoc]

theorem data_class (s : String) : "data " ++ ("class " ++ s) = "data class " ++ s := by
  rw [← String.append_assoc]; rfl
theorem sealed_interface (s : String) : "sealed " ++ ("interface " ++ s) = "sealed interface " ++ s := by
  rw [← String.append_assoc]; rfl
theorem fun_default (s : String) : "fun createDefault(" ++ ("): " ++ s) = "fun createDefault(): " ++ s := by
  rw [← String.append_assoc]; rfl
theorem wTab_res (n : Nat) (r : String) : (wTab n r).res = r := rfl
theorem parens_colon (s : String) : "()" ++ (" : " ++ s) = "() : " ++ s := by
  rw [← String.append_assoc]; rfl
theorem unit_colon (s : String) : ")" ++ (" : " ++ s) = ") : " ++ s := by
  rw [← String.append_assoc]; rfl

namespace KotlinGen
open Kotlin

/-- The token `t`, printed at indentation `n`, adds the text `s`. -/
def Em (x : ExtF) (n : Nat) (t : KIR) (s : String) : Prop :=
  ∀ r w, writeToken x (wTab n r) t = .ok w → w = wTab n (r ++ s)

/-- The tokens `ts`, printed at indentation `n` after a token of kind `last`, add the text `s`. -/
def Ems (x : ExtF) (n : Nat) (last : Option String) (ts : List KIR) (s : String) : Prop :=
  ∀ r w, writeTokens x last (wTab n r) ts = .ok w → w = wTab n (r ++ s)

/-! ### Types and default values -/

mutual
theorem typeId_render (t : TypeId) (s : String) (h : typeId t = .ok s) : s = (genTy t).render := by
  cases t with
  | integer i size signed =>
    simp only [typeId] at h
    simp only [genTy, Ty.render]
    cases signed
    all_goals
      repeat' split at h
      all_goals first | (cases h; done) | skip
      all_goals simp_all [intName]
  | number i size =>
    simp only [typeId] at h
    simp only [genTy, Ty.render]
    repeat' split at h
    all_goals first | (cases h; done) | skip
    all_goals simp_all
  | bool => cases h; simp [genTy, Ty.render]
  | char => cases h; simp [genTy, Ty.render]
  | other id =>
    simp only [typeId] at h
    simp only [genTy, Ty.render]
    repeat' split at h
    all_goals cases h
    all_goals simp_all
  | generic id gs =>
    simp only [typeId] at h
    cases e : typeIds gs with
    | error => rw [e] at h; cases h
    | ok ss =>
      rw [e] at h
      have := typeIds_render gs ss e
      subst this
      simp only [genTy, Ty.render]
      dsimp only at h
      split at h
      all_goals cases h
      · next e => simp [e]
      · next e => simp [e]
theorem typeIds_render (ts : List TypeId) (ss : List String) (h : typeIds ts = .ok ss) :
    ss = (genTys ts).map Ty.render := by
  cases ts with
  | nil => cases h; rfl
  | cons t ts =>
    simp only [typeIds] at h
    cases e : typeId t with
    | error => rw [e] at h; cases h
    | ok s =>
      rw [e] at h
      cases e' : typeIds ts with
      | error => rw [e'] at h; cases h
      | ok ss' =>
        rw [e'] at h
        cases h
        rw [typeId_render t s e, typeIds_render ts ss' e']
        rfl
end

theorem defaultValue_render (t : TypeId) (s : String) (h : defaultValue t = .ok s) : s = (genDefault t).render := by
  cases t with
  | integer i size signed =>
    simp only [defaultValue] at h
    simp only [genDefault, Expr.render]
    cases signed
    all_goals
      repeat' split at h
      all_goals first | (cases h; done) | skip
      all_goals simp_all [intZero]
  | number i size =>
    simp only [defaultValue] at h
    simp only [genDefault, Expr.render]
    repeat' split at h
    all_goals first | (cases h; done) | skip
    all_goals simp_all
  | bool => cases h; rfl
  | char => cases h; rfl
  | other id =>
    simp only [defaultValue] at h
    simp only [genDefault]
    repeat' split at h
    all_goals cases h
    all_goals simp_all [Expr.render]
  | generic id gs =>
    simp only [defaultValue] at h
    simp only [genDefault]
    split at h
    · cases h
      simp_all [Expr.render]
    · next hv =>
      cases e : typeIds gs with
      | error => rw [e] at h; cases h
      | ok ss =>
        rw [e] at h
        cases h
        rw [if_neg hv, typeIds_render gs ss e]
        rfl

/-! ### Tokens -/

theorem em_id (x : ExtF) (n : Nat) (s : String) : Em x n (.id s) s := by
  intro r w h; cases h; rfl

theorem em_type (x : ExtF) (n : Nat) (t : TypeId) : Em x n (.type t) (genTy t).render := by
  intro r w h
  simp only [writeToken, writeE] at h
  split at h
  · next s e => cases h; rw [← typeId_render t s e]; rfl
  · cases h

theorem em_default (x : ExtF) (n : Nat) (t : TypeId) : Em x n (.defaultValue t) (genDefault t).render := by
  intro r w h
  simp only [writeToken, writeE] at h
  split at h
  · next s e => cases h; rw [← defaultValue_render t s e]; rfl
  · cases h

theorem em_assign {x : ExtF} {n : Nat} {v : KIR} {s : String} (id : String) (h : Em x n v s) :
    Em x n (.assign id v) (x.camel id ++ " = " ++ s) := by
  intro r w hw
  simp only [writeToken, wTab_write] at hw
  rw [h _ _ hw]
  simp [String.append_assoc]

theorem em_decl {x : ExtF} {n : Nat} {v : KIR} {s : String} (sep : String) (h : Em x n v s) :
    Em x n (.decl v (some sep)) (linesText 4 [(n, s ++ sep)]) := by
  intro r w hw
  simp only [writeToken, wTab_tabs] at hw
  obtain ⟨w1, e1, e2⟩ := bind_ok hw
  rw [h _ _ e1] at e2
  cases e2
  simp [wTab_write, wTab_newLine, linesText, String.append_assoc]

theorem em_val {x : ExtF} {n : Nat} {ty : KIR} {s : String} (id : String) (h : Em x n ty s) :
    Em x n (.val id false ty none) ("val " ++ id ++ ": " ++ s) := by
  intro r w hw
  simp only [writeToken, wTab_write] at hw
  obtain ⟨w1, e1, e2⟩ := bind_ok hw
  rw [if_neg (by simp), wTab_write, wTab_write] at e1
  rw [h _ _ e1] at e2
  cases e2
  simp [String.append_assoc]

theorem em_param (x : ExtF) (n : Nat) (id : String) (t : TypeId) :
    Em x n (param id t) (linesText 4 [(n, "val " ++ id ++ ": " ++ (genTy t).render ++ ",")]) :=
  em_decl "," (em_val id (em_type x n t))

theorem em_defaultArg (x : ExtF) (n : Nat) (t : TypeId) :
    Em x n (defaultArg t) (linesText 4 [(n, renderArg (none, genDefault t))]) :=
  em_decl "," (em_default x n t)

theorem em_namedDefaultArg (x : ExtF) (n : Nat) (f : StructField) :
    Em x n (namedDefaultArg f) (linesText 4 [(n, renderArg (some (x.camel f.name), genDefault f.typeId))]) :=
  em_decl "," (em_assign f.name (em_default x n f.typeId))

theorem ems_nil (x : ExtF) (n : Nat) (last : Option String) : Ems x n last [] "" := by
  intro r w h; cases h; simp

theorem ems_cons {x : ExtF} {n : Nat} {last : Option String} {t : KIR} {ts : List KIR} {g s u : String}
    (hg : ∀ r, gaps last t.kind (wTab n r) = wTab n (r ++ g)) (h1 : Em x n t s) (h2 : Ems x n (some t.kind) ts u) :
    Ems x n last (t :: ts) (g ++ s ++ u) := by
  intro r w hw
  simp only [writeTokens] at hw
  obtain ⟨w1, e1, e2⟩ := bind_ok hw
  rw [hg] at e1
  rw [h1 _ _ e1] at e2
  rw [h2 _ _ e2]
  simp [String.append_assoc]

theorem gaps_none (k : String) (n : Nat) (r : String) : gaps none k (wTab n r) = wTab n (r ++ "") := by
  simp [gaps]

theorem gaps_decl (n : Nat) (r : String) : gaps (some "Declaration") "Declaration" (wTab n r) = wTab n (r ++ "") := by
  simp [gaps, gapPairs, gapStep]

/-- Declarations are printed one after the other. -/
theorem ems_decls {α : Type} (x : ExtF) (n : Nat) (f : α → KIR) (L : α → String) (hk : ∀ a, (f a).kind = "Declaration")
    (h : ∀ a, Em x n (f a) (linesText 4 [(n, L a)])) (as : List α) (last : Option String)
    (hl : last = none ∨ last = some "Declaration") :
    Ems x n last (as.map f) (linesText 4 (as.map (fun a => (n, L a)))) := by
  induction as generalizing last with
  | nil => exact ems_nil x n last
  | cons a as ih =>
    have e : linesText 4 ((a :: as).map (fun a => (n, L a))) = "" ++ linesText 4 [(n, L a)]
        ++ linesText 4 (as.map (fun a => (n, L a))) := by
      rw [List.map_cons, show ((n, L a) :: as.map (fun a => (n, L a))) = [(n, L a)] ++ as.map (fun a => (n, L a)) from rfl,
        linesText_append]
      simp
    rw [e, List.map_cons]
    refine ems_cons ?_ (h a) ?_
    · intro r
      rw [hk]
      rcases hl with rfl | rfl
      · exact gaps_none _ n r
      · exact gaps_decl n r
    · rw [hk]
      exact ih _ (Or.inr rfl)

theorem ems_one {x : ExtF} {n : Nat} {t : KIR} {s : String} (h : Em x n t s) : Ems x n none [t] s := by
  have := ems_cons (last := none) (fun r => gaps_none t.kind n r) h (ems_nil x n _)
  simpa using this

/-- Tokens between braces, one level deeper. -/
theorem em_level {x : ExtF} {n : Nat} {ts : List KIR} {s r : String} {w : Writer} {f : Writer → Except Panic Writer}
    (h : Ems x (n + 1) none ts s) (hw : (do let w ← writeTokens x none (wTab (n + 1) r) ts
                                            let w ← popTabE w
                                            f w) = .ok w) : f (wTab n (r ++ s)) = .ok w := by
  obtain ⟨w1, e1, e2⟩ := bind_ok hw
  rw [h _ _ e1, wTab_pop] at e2
  exact e2

/-- `head` followed by the value of a function and the end of the line. -/
theorem em_call {x : ExtF} {n : Nat} {α : Type} (f : α → KIR) (g : α → Option String × Expr) (hk : ∀ a, (f a).kind = "Declaration")
    (h : ∀ a, Em x (n + 1) (f a) (linesText 4 [(n + 1, renderArg (g a))])) (id : String) (as : List α) (r head : String) (w : Writer)
    (hw : writeToken x (wTab n (r ++ repeatStr (repeatStr " " 4) n ++ head)) (.call id (as.map f)) = .ok w) :
    w.newLine = wTab n (r ++ linesText 4 ((New.call id (as.map g)).render n head)) := by
  simp only [writeToken] at hw
  cases as with
  | nil =>
    rw [List.map_nil, if_pos List.isEmpty_nil] at hw
    cases hw
    simp [wTab_write, wTab_newLine, New.render, linesText, String.append_assoc]
  | cons a as =>
    rw [if_neg (by simp)] at hw
    simp only [wTab_write, wTab_newLine, wTab_push] at hw
    have := em_level (ems_decls x (n + 1) f (fun a => renderArg (g a)) hk h (a :: as) none (Or.inl rfl)) hw
    cases this
    simp [wTab_write, wTab_newLine, wTab_tabs, New.render, linesText, linesText_append, String.append_assoc, List.map_map,
      Function.comp_def]

theorem em_object_value {x : ExtF} {n : Nat} (id : String) (r head : String) (w : Writer)
    (hw : writeToken x (wTab n (r ++ repeatStr (repeatStr " " 4) n ++ head)) (.id id) = .ok w) :
    w.newLine = wTab n (r ++ linesText 4 ((New.object id).render n head)) := by
  rw [em_id x n id _ _ hw]
  simp [wTab_newLine, New.render, linesText, String.append_assoc]

/-- The companion object that holds `createDefault`. -/
theorem em_companion {x : ExtF} {id : String} {body : KIR} {v : New}
    (h : ∀ r head w, writeToken x (wTab 2 (r ++ repeatStr (repeatStr " " 4) 2 ++ head)) body = .ok w →
      w.newLine = wTab 2 (r ++ linesText 4 (v.render 2 head))) :
    Em x 1 (.companion [.funInline "createDefault" [] (.type (.other id)) body])
      (linesText 4 (Companion.mk (genName id) v).render) := by
  have hf : Em x 2 (.funInline "createDefault" [] (.type (.other id)) body)
      (linesText 4 (v.render 2 ("fun createDefault(): " ++ genName id ++ " = "))) := by
    intro r w hw
    simp only [writeToken] at hw
    obtain ⟨w0, e0, h1⟩ := bind_ok hw
    rw [if_pos List.isEmpty_nil] at e0
    cases e0
    obtain ⟨w1, e1, h2⟩ := bind_ok h1
    obtain ⟨w2, e2, h3⟩ := bind_ok h2
    have e1 : w1 = _ := em_type x 2 (.other id) _ _ e1
    rw [e1] at e2
    cases h3
    refine h _ _ _ ?_
    rw [← e2]
    simp [fun_default, wTab_res, wTab_write, wTab_tabs, genTy, Ty.render, genName, String.append_assoc]
  intro r w hw
  simp only [writeToken, wTab_writeln, wTab_push] at hw
  have := em_level (ems_one hf) hw
  cases this
  simp [wTab_writeln, Companion.render, linesText, linesText_append, String.append_assoc]

/-- A class without supertype, with a companion object. -/
theorem em_class {x : ExtF} {id : String} {isData : Bool} {α : Type} {as : List α} {f : α → KIR} {g : α → String × Ty}
    {body : KIR} {c : Companion} (hk : ∀ a, (f a).kind = "Declaration")
    (hf : ∀ a, Em x 1 (f a) (linesText 4 [(1, "val " ++ (g a).1 ++ ": " ++ (g a).2.render ++ ",")]))
    (hb : Em x 1 body (linesText 4 c.render)) :
    Em x 0 (.cls id isData [] (as.map f) [body]) (linesText 4 (Item.cls (x.pascal id) isData (as.map g) none (some c)).render) := by
  intro r w hw
  simp only [writeToken] at hw
  cases as with
  | nil =>
    obtain ⟨w0, e0, hw⟩ := bind_ok hw
    rw [List.map_nil, if_pos List.isEmpty_nil] at e0
    cases e0
    obtain ⟨w1, e1, hw⟩ := bind_ok hw
    rw [if_pos List.isEmpty_nil] at e1
    cases e1
    rw [if_neg (by simp)] at hw
    cases isData
    all_goals
      simp only [wTab_tabs, wTab_write, wTab_newLine, wTab_push, if_true, if_false, Bool.false_eq_true] at hw
      have := em_level (ems_one hb) hw
      cases this
      simp [data_class, sealed_interface, unit_colon, wTab_writeln, Item.render, renderBody, renderSuper, linesText, linesText_append, repeatStr, String.append_assoc]
  | cons a as =>
    obtain ⟨w0, e0, hw⟩ := bind_ok hw
    rw [if_neg (by simp)] at e0
    cases isData
    all_goals
      simp only [wTab_tabs, wTab_write, wTab_newLine, wTab_push, if_true, if_false, Bool.false_eq_true] at e0
      have e0 := em_level (ems_decls x 1 f (fun a => "val " ++ (g a).1 ++ ": " ++ (g a).2.render ++ ",") hk hf (a :: as) none
        (Or.inl rfl)) e0
      cases e0
      obtain ⟨w1, e1, hw⟩ := bind_ok hw
      rw [if_pos List.isEmpty_nil] at e1
      cases e1
      rw [if_neg (by simp)] at hw
      simp only [wTab_tabs, wTab_write, wTab_newLine, wTab_push] at hw
      have := em_level (ems_one hb) hw
      cases this
      simp [data_class, sealed_interface, unit_colon, wTab_writeln, Item.render, renderBody, renderSuper, linesText, linesText_append, repeatStr, String.append_assoc,
        List.map_map, Function.comp_def]

/-- A class with a supertype and without body. -/
theorem em_case {x : ExtF} {id sup : String} {isData : Bool} {α : Type} {as : List α} {f : α → KIR} {g : α → String × Ty}
    (hk : ∀ a, (f a).kind = "Declaration")
    (hf : ∀ a, Em x 1 (f a) (linesText 4 [(1, "val " ++ (g a).1 ++ ": " ++ (g a).2.render ++ ",")])) :
    Em x 0 (.cls id isData [.id sup] (as.map f) [])
      (linesText 4 (Item.cls (x.pascal id) isData (as.map g) (some sup) none).render) := by
  intro r w hw
  simp only [writeToken] at hw
  cases as with
  | nil =>
    obtain ⟨w0, e0, hw⟩ := bind_ok hw
    rw [List.map_nil, if_pos List.isEmpty_nil] at e0
    cases e0
    obtain ⟨w1, e1, hw⟩ := bind_ok hw
    rw [if_pos List.isEmpty_nil] at hw
    cases e1
    cases hw
    cases isData
    all_goals
      simp [data_class, unit_colon, parens_colon, wTab_write, wTab_tabs, wTab_newLine, Item.render, renderBody, renderSuper, linesText, repeatStr,
        String.append_assoc]
  | cons a as =>
    obtain ⟨w0, e0, hw⟩ := bind_ok hw
    rw [if_neg (by simp)] at e0
    cases isData
    all_goals
      simp only [wTab_tabs, wTab_write, wTab_newLine, wTab_push, if_true, if_false, Bool.false_eq_true] at e0
      have e0 := em_level (ems_decls x 1 f (fun a => "val " ++ (g a).1 ++ ": " ++ (g a).2.render ++ ",") hk hf (a :: as) none
        (Or.inl rfl)) e0
      cases e0
      obtain ⟨w1, e1, hw⟩ := bind_ok hw
      rw [if_pos List.isEmpty_nil] at hw
      cases e1
      cases hw
      simp [data_class, unit_colon, wTab_write, wTab_newLine, Item.render, renderBody, renderSuper, linesText, linesText_append, repeatStr,
        String.append_assoc, List.map_map, Function.comp_def]

theorem em_struct (x : ExtF) (n : StructNode) : Em x 0 (structModel x n) (linesText 4 (genStruct x n).render) :=
  em_class (g := fun (f : StructField) => (x.camel f.name, genTy f.typeId)) (fun _ => rfl)
    (fun f => em_param x 1 (x.camel f.name) f.typeId)
    (em_companion (fun r head w hw => em_call namedDefaultArg (fun f => (some (x.camel f.name), genDefault f.typeId))
      (fun _ => rfl) (fun f => em_namedDefaultArg x 3 f) n.id n.fields r head w hw))

theorem tupleParams_eq (i : Nat) (vs : List TupleField) :
    tupleParams i vs = (withIdx i vs).map (fun p => param ("p" ++ toString p.1) p.2.typeId) := by
  induction vs generalizing i with
  | nil => rfl
  | cons v vs ih => simp [tupleParams, withIdx, ih]

theorem genTuple_eq (i : Nat) (vs : List TupleField) :
    genTuple i vs = (withIdx i vs).map (fun p => ("p" ++ toString p.1, genTy p.2.typeId)) := by
  induction vs generalizing i with
  | nil => rfl
  | cons v vs ih => simp [genTuple, withIdx, ih]

theorem em_enumCase (x : ExtF) (enumId : String) (i : EnumItem) :
    Em x 0 (enumCase enumId i) (linesText 4 (genCase x enumId i).render) := by
  cases i with
  | empty p id =>
    intro r w hw
    simp only [enumCase, writeToken] at hw
    obtain ⟨w1, e1, hw⟩ := bind_ok hw
    cases e1
    cases hw
    simp [wTab_write, wTab_tabs, wTab_newLine, genCase, Item.render, linesText, repeatStr, String.append_assoc]
  | tuple p id vs =>
    simp only [enumCase, genCase, tupleParams_eq, genTuple_eq]
    exact em_case (fun _ => rfl) (fun p => em_param x 1 _ _)
  | struct p id fs =>
    simp only [enumCase, genCase]
    exact em_case (fun _ => rfl) (fun f => em_param x 1 _ _)

theorem em_enumDefault (x : ExtF) (enumId : String) (i : EnumItem) (r head : String) (w : Writer)
    (hw : writeToken x (wTab 2 (r ++ repeatStr (repeatStr " " 4) 2 ++ head)) (enumDefault enumId i) = .ok w) :
    w.newLine = wTab 2 (r ++ linesText 4 ((genEnumDefault x enumId i).render 2 head)) := by
  cases i with
  | empty p id => exact em_object_value _ r head w hw
  | tuple p id vs =>
    exact em_call (fun (v : TupleField) => defaultArg v.typeId) (fun v => (none, genDefault v.typeId)) (fun _ => rfl)
      (fun v => em_defaultArg x 3 v.typeId) _ vs r head w hw
  | struct p id fs =>
    exact em_call namedDefaultArg (fun f => (some (x.camel f.name), genDefault f.typeId))
      (fun _ => rfl) (fun f => em_namedDefaultArg x 3 f) _ fs r head w hw

theorem em_interface (x : ExtF) (n : EnumNode) (i : EnumItem) :
    Em x 0 (.interface n.id true
      [.companion [.funInline "createDefault" [] (.type (.other n.id)) (enumDefault n.id i)]])
      (linesText 4 (Item.interface n.id ⟨genName n.id, genEnumDefault x n.id i⟩).render) := by
  have hb := em_companion (x := x) (id := n.id) (em_enumDefault x n.id i)
  intro r w hw
  simp only [writeToken, wTab_tabs, wTab_write, if_true, wTab_writeln, wTab_push] at hw
  have := em_level (ems_one hb) hw
  cases this
  simp [data_class, sealed_interface, unit_colon, wTab_writeln, Item.render, linesText, linesText_append, repeatStr, String.append_assoc]

/-! ### The file -/

/-- The token `t` prints the declaration `i`. -/
structure Prints (x : ExtF) (t : KIR) (i : Item) : Prop where
  kind : t.kind = (match i with | .interface _ _ => "Interface" | .object _ _ => "Object" | .cls _ _ _ _ _ => "Class")
  text : Em x 0 t (linesText 4 i.render)

theorem prints_struct (x : ExtF) (n : StructNode) : Prints x (structModel x n) (genStruct x n) := ⟨rfl, em_struct x n⟩

theorem prints_case (x : ExtF) (e : String) (i : EnumItem) : Prints x (enumCase e i) (genCase x e i) :=
  ⟨by cases i <;> rfl, em_enumCase x e i⟩

theorem prints_item (x : ExtF) (d : ASTNode) (ts : List KIR) (h : modelsItem x d = .ok ts) :
    Each (Prints x) ts (genItem x d) := by
  cases d with
  | struct n => cases h; exact .cons (prints_struct x n) .nil
  | enum n =>
    simp only [modelsItem, enumModel, enumInterface] at h
    simp only [genItem, genEnum]
    cases e : n.items with
    | nil => rw [e] at h; cases h
    | cons i is =>
      rw [e] at h
      cases h
      exact .cons ⟨rfl, em_interface x n i⟩ (each_map _ _ (prints_case x n.id) (i :: is))
  | _ => cases h; exact .nil

theorem prints_items (x : ExtF) (S : List ASTNode) (ts : List KIR) (h : modelTokens x S = .ok ts) :
    Each (Prints x) ts (genItems x S) := by
  induction S generalizing ts with
  | nil => cases h; exact .nil
  | cons d ds ih =>
    simp only [modelTokens] at h
    cases e : modelsItem x d with
    | error => rw [e] at h; cases h
    | ok us =>
      rw [e] at h
      cases e' : modelTokens x ds with
      | error => rw [e'] at h; cases h
      | ok vs =>
        rw [e'] at h
        cases h
        exact each_append (prints_item x d us e) (ih vs e')

/-- The gap between two declarations. -/
theorem gaps_items {x : ExtF} {t u : KIR} {i j : Item} (h1 : Prints x t i) (h2 : Prints x u j) (r : String) :
    gaps (some t.kind) u.kind (wTab 0 r)
      = wTab 0 (r ++ linesText 4 (if i.isInterface && j.isInterface then [] else [(0, "")])) := by
  rw [h1.kind, h2.kind]
  cases i <;> cases j <;>
    simp [gaps, gapPairs, gapStep, Item.isInterface, linesText, repeatStr, wTab_newLine]

theorem ems_items {x : ExtF} {t : KIR} {i : Item} {ts : List KIR} {is : List Item} (h : Prints x t i)
    (hs : Each (Prints x) ts is) {last : Option String} {g : String}
    (hg : ∀ r, gaps last t.kind (wTab 0 r) = wTab 0 (r ++ g)) :
    Ems x 0 last (t :: ts) (g ++ linesText 4 (renderItems (i :: is))) := by
  induction hs generalizing t i last g with
  | nil =>
    have := ems_cons hg h.text (ems_nil x 0 _)
    simpa [renderItems] using this
  | @cons u j ts is hu hs ih =>
    have h2 := ih hu (gaps_items h hu)
    have := ems_cons hg h.text h2
    simpa [renderItems, linesText_append, String.append_assoc] using this

/-- **The text is the rendering of the tree.** -/
theorem models_text (x : ExtF) (S : List ASTNode) (out : String) (h : models x S = .ok out) :
    out = linesText 4 (renderItems (genItems x S)) := by
  simp only [models] at h
  cases e : modelTokens x S with
  | error => rw [e] at h; cases h
  | ok ts =>
    rw [e] at h
    simp only [stringify] at h
    have hp := prints_items x S ts e
    cases e' : writeTokens x none Writer.default ts with
    | error => rw [e'] at h; cases h
    | ok w =>
      rw [e'] at h
      cases h
      cases hq : genItems x S with
      | nil =>
        rw [hq] at hp
        cases hp
        cases e'
        rfl
      | cons i is =>
        rw [hq] at hp
        cases hp with
        | cons h1 h2 =>
          have := ems_items h1 h2 (fun r => gaps_none _ 0 r) _ _ (show writeTokens x none (wTab 0 "") _ = .ok w from e')
          rw [this]
          simp [Writer.show, wTab]

end KotlinGen
end TPB
