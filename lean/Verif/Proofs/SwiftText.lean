/- The text that the Swift generator emits for the models of a schema is the rendering of the syntax tree of
`Sem/Swift.lean`. -/
import Verif.Sem.Swift
import Verif.Proofs.KotlinText
namespace TPB.SwiftGen
open Swift

/-- The token `t`, printed at indentation `n`, adds the text `s`. -/
def Em (x : ExtF) (n : Nat) (t : SIR) (s : String) : Prop :=
  ∀ r w, writeToken x (wTab n r) t = .ok w → w = wTab n (r ++ s)

/-- The tokens `ts`, printed at indentation `n` after a token of kind `last`, add the text `s`. -/
def Ems (x : ExtF) (n : Nat) (last : Option String) (ts : List SIR) (s : String) : Prop :=
  ∀ r w, writeTokens x last (wTab n r) ts = .ok w → w = wTab n (r ++ s)

/-! ### Types and default values -/

mutual
theorem typeId_render (t : TypeId) (s : String) (h : typeId t = .ok s) : s = (genTy t).render := by
  cases t with
  | integer i size signed =>
    simp only [typeId] at h
    simp only [genTy, Ty.render]
    cases signed
    all_goals
      repeat' split at h
      all_goals first | (cases h; done) | skip
      all_goals simp_all [intName]
  | number i size =>
    simp only [typeId] at h
    simp only [genTy, Ty.render]
    repeat' split at h
    all_goals first | (cases h; done) | skip
    all_goals simp_all
  | bool => cases h; simp [genTy, Ty.render]
  | char => cases h; simp [genTy, Ty.render]
  | other id =>
    simp only [typeId] at h
    simp only [genTy, Ty.render, genName]
    repeat' split at h
    all_goals cases h
    all_goals simp_all
  | generic id gs =>
    simp only [typeId] at h
    cases e : typeIds gs with
    | error => rw [e] at h; cases h
    | ok ss =>
      rw [e] at h
      have := typeIds_render gs ss e
      subst this
      simp only [genTy]
      dsimp only at h
      split at h
      all_goals cases h
      · next e => simp [e, Ty.render]
      · next e => simp [e, Ty.render]
theorem typeIds_render (ts : List TypeId) (ss : List String) (h : typeIds ts = .ok ss) :
    ss = (genTys ts).map Ty.render := by
  cases ts with
  | nil => cases h; rfl
  | cons t ts =>
    simp only [typeIds] at h
    cases e : typeId t with
    | error => rw [e] at h; cases h
    | ok s =>
      rw [e] at h
      cases e' : typeIds ts with
      | error => rw [e'] at h; cases h
      | ok ss' =>
        rw [e'] at h
        cases h
        rw [typeId_render t s e, typeIds_render ts ss' e']
        rfl
end

theorem defaultValue_render (t : TypeId) (s : String) (h : defaultValue t = .ok s) : s = (genDefault t).render := by
  cases t with
  | integer i size signed => cases h; rfl
  | number i size => cases h; rfl
  | bool => cases h; rfl
  | char => cases h; rfl
  | other id =>
    simp only [defaultValue] at h
    simp only [genDefault]
    repeat' split at h
    all_goals cases h
    all_goals simp_all [Expr.render]
  | generic id gs =>
    simp only [defaultValue] at h
    simp only [genDefault]
    split at h
    · cases h
      simp_all [Expr.render]
    · next hv =>
      cases e : typeIds gs with
      | error => rw [e] at h; cases h
      | ok ss =>
        rw [e] at h
        cases h
        rw [if_neg hv, typeIds_render gs ss e]
        rfl

theorem around_ok {a b s : String} {m : Except Panic String} (h : around a m b = .ok s) :
    ∃ t, m = .ok t ∧ s = a ++ t ++ b := by
  cases m with
  | ok t => cases h; exact ⟨t, rfl, rfl⟩
  | error => cases h

theorem writeE_ok {w v : Writer} {m : Except Panic String} (h : KotlinGen.writeE w m = .ok v) :
    ∃ t, m = .ok t ∧ v = w.write t := by
  cases m with
  | ok t => cases h; exact ⟨t, rfl, rfl⟩
  | error => cases h

theorem writelnE_ok {w v : Writer} {m : Except Panic String} (h : writelnE w m = .ok v) :
    ∃ t, m = .ok t ∧ v = w.writeln t := by
  cases m with
  | ok t => cases h; exact ⟨t, rfl, rfl⟩
  | error => cases h

/-! ### Tokens -/

theorem em_field (x : ExtF) (n : Nat) (id : String) (t : TypeId) :
    Em x n (.field id t) (linesText 4 [(n, "var " ++ x.camel id ++ ": " ++ (genTy t).render)]) := by
  intro r w h
  simp only [writeToken] at h
  obtain ⟨s, e, rfl⟩ := writelnE_ok h
  obtain ⟨s', e', rfl⟩ := around_ok e
  rw [typeId_render t s' e', wTab_writeln]
  simp

theorem em_named (x : ExtF) (n : Nat) (id : String) (t : TypeId) :
    Em x n (.assignNamed id t none) (Arg.labelled (x.camel id) (genDefault t)).render := by
  intro r w h
  simp only [writeToken] at h
  obtain ⟨s, e, rfl⟩ := writeE_ok h
  obtain ⟨s', e', rfl⟩ := around_ok e
  rw [defaultValue_render t s' e', wTab_write]
  simp [Arg.render]

theorem em_plain (x : ExtF) (n : Nat) (t : TypeId) :
    Em x n (.assign none t none) (Arg.plain (genDefault t)).render := by
  intro r w h
  simp only [writeToken] at h
  obtain ⟨s, e, rfl⟩ := writeE_ok h
  rw [defaultValue_render t s e, wTab_write]
  simp [Arg.render]

theorem em_commented (x : ExtF) (n : Nat) (id : String) (t : TypeId) :
    Em x n (.assign (some id) t none) (Arg.commented (x.camel id) (genDefault t)).render := by
  intro r w h
  simp only [writeToken] at h
  obtain ⟨s, e, rfl⟩ := writeE_ok h
  rw [defaultValue_render t s e, wTab_write, wTab_write]
  simp [Arg.render, String.append_assoc]

theorem em_caseType (x : ExtF) (n : Nat) (id : Option String) (t : TypeId) :
    Em x n (.enumCaseType id t) (renderParam (id, genTy t)) := by
  intro r w h
  cases id with
  | none =>
    simp only [writeToken] at h
    obtain ⟨s, e, rfl⟩ := writeE_ok h
    rw [typeId_render t s e, wTab_write]
    rfl
  | some id =>
    simp only [writeToken] at h
    obtain ⟨s, e, rfl⟩ := writeE_ok h
    obtain ⟨s', e', rfl⟩ := around_ok e
    rw [typeId_render t s' e', wTab_write]
    simp [renderParam]

theorem ems_nil (x : ExtF) (n : Nat) (last : Option String) : Ems x n last [] "" := by
  intro r w h; cases h; simp

theorem ems_cons {x : ExtF} {n : Nat} {last : Option String} {t : SIR} {ts : List SIR} {g s u : String}
    (hg : ∀ r, gaps last t.kind (wTab n r) = wTab n (r ++ g)) (h1 : Em x n t s) (h2 : Ems x n (some t.kind) ts u) :
    Ems x n last (t :: ts) (g ++ s ++ u) := by
  intro r w hw
  simp only [writeTokens] at hw
  obtain ⟨w1, e1, e2⟩ := bind_ok hw
  rw [hg] at e1
  rw [h1 _ _ e1] at e2
  rw [h2 _ _ e2]
  simp [String.append_assoc]

theorem gaps_none (k : String) (n : Nat) (r : String) : gaps none k (wTab n r) = wTab n (r ++ "") := by
  simp [gaps]

theorem ems_one {x : ExtF} {n : Nat} {t : SIR} {s : String} (h : Em x n t s) : Ems x n none [t] s := by
  have := ems_cons (last := none) (fun r => gaps_none t.kind n r) h (ems_nil x n _)
  simpa using this

/-- Members of the same kind, that are not separated, and the method after them. -/
theorem ems_members {α : Type} (x : ExtF) (k : String) (f : α → SIR) (L : α → List Line) (hk : ∀ a, (f a).kind = k)
    (h : ∀ a, Em x 1 (f a) (linesText 4 (L a)))
    (hsame : ∀ r, gaps (some k) k (wTab 1 r) = wTab 1 r) (hgap : ∀ r, gaps (some k) "StructMethod" (wTab 1 r) = wTab 1 (r ++ "\n"))
    {m : SIR} {d : Default} (hm : m.kind = "StructMethod") (hd : Em x 1 m (linesText 4 d.render)) (as : List α) :
    Ems x 1 (some k) (as.map f ++ [m]) (linesText 4 (as.flatMap L) ++ "\n" ++ linesText 4 d.render) := by
  induction as with
  | nil =>
    have := ems_cons (last := some k) (fun r => by rw [hm]; exact hgap r) hd (ems_nil x 1 _)
    simpa [linesText] using this
  | cons a as ih =>
    have := ems_cons (last := some k) (g := "") (fun r => by rw [hk, String.append_empty]; exact hsame r) (h a) (by rw [hk]; exact ih)
    simpa [linesText_append, String.append_assoc] using this

/-- The members of a declaration. -/
theorem ems_body {α : Type} (x : ExtF) (k : String) (f : α → SIR) (L : α → List Line) (hk : ∀ a, (f a).kind = k)
    (h : ∀ a, Em x 1 (f a) (linesText 4 (L a))) (hL : ∀ a, L a ≠ [])
    (hsame : ∀ r, gaps (some k) k (wTab 1 r) = wTab 1 r) (hgap : ∀ r, gaps (some k) "StructMethod" (wTab 1 r) = wTab 1 (r ++ "\n"))
    {m : SIR} {d : Default} (hm : m.kind = "StructMethod") (hd : Em x 1 m (linesText 4 d.render)) (as : List α) :
    Ems x 1 none (as.map f ++ [m]) (linesText 4 (renderMembers (as.flatMap L) d)) := by
  cases as with
  | nil =>
    have := ems_one hd
    simpa [renderMembers] using this
  | cons a as =>
    have := ems_cons (last := none) (fun r => gaps_none _ 1 r) (h a) (by
      rw [hk]; exact ems_members x k f L hk h hsame hgap hm hd as)
    have e : ∀ (ls : List Line), ls ≠ [] → renderMembers ls d = ls ++ (0, "") :: d.render := by
      intro ls hl
      cases ls with
      | nil => exact absurd rfl hl
      | cons l ls => rfl
    rw [List.flatMap_cons, e _ (by simp [hL a])]
    simpa [linesText, linesText_append, repeatStr, String.append_assoc] using this

/-- Tokens one level deeper. -/
theorem em_level {x : ExtF} {n : Nat} {ts : List SIR} {s r : String} {w : Writer} {f : Writer → Except Panic Writer}
    (h : Ems x (n + 1) none ts s) (hw : (do let w ← writeTokens x none (wTab (n + 1) r) ts
                                            let w ← popTabE w
                                            f w) = .ok w) : f (wTab n (r ++ s)) = .ok w := by
  obtain ⟨w1, e1, e2⟩ := bind_ok hw
  rw [h _ _ e1, wTab_pop] at e2
  exact e2

/-- A list with commas. -/
theorem commas_text {α : Type} (x : ExtF) (n : Nat) (f : α → SIR) (L : α → String) (h : ∀ a, Em x n (f a) (L a)) (as : List α)
    (r : String) (w : Writer) (hw : writeCommas x (wTab n r) (as.map f) = .ok w) :
    w = wTab n (r ++ linesText 4 (commaLines n (as.map L))) := by
  induction as generalizing r with
  | nil => cases hw; simp [commaLines, linesText]
  | cons a as ih =>
    simp only [List.map_cons, writeCommas] at hw
    obtain ⟨w1, e1, e2⟩ := bind_ok hw
    rw [wTab_tabs] at e1
    rw [h a _ _ e1] at e2
    cases as with
    | nil =>
      cases e2
      simp [commaLines, linesText, wTab_newLine, String.append_assoc]
    | cons b as =>
      rw [List.map_cons, if_neg (by simp), wTab_write, wTab_newLine] at e2
      rw [ih _ e2]
      simp [commaLines, linesText, String.append_assoc]

/-- A call with arguments. -/
theorem call_text {α : Type} (x : ExtF) (n : Nat) (f : α → SIR) (g : α → Arg) (h : ∀ a, Em x (n + 1) (f a) (g a).render)
    (as : List α) (r head : String) (w : Writer)
    (hw : (if (as.map f).isEmpty then (pure ((wTab n (r ++ repeatStr (repeatStr " " 4) n ++ head)).write "()") : Except Panic Writer)
      else do
        let w ← writeCommas x ((wTab n (r ++ repeatStr (repeatStr " " 4) n ++ head)).write "(").newLine.pushTab (as.map f)
        let w ← popTabE w
        pure (w.writeTabs.write ")")) = .ok w) :
    w.newLine = wTab n (r ++ linesText 4 (renderCall n head (as.map g))) := by
  cases as with
  | nil =>
    rw [List.map_nil, if_pos List.isEmpty_nil] at hw
    cases hw
    simp [wTab_write, wTab_newLine, renderCall, linesText, String.append_assoc]
  | cons a as =>
    rw [if_neg (by simp)] at hw
    simp only [wTab_write, wTab_newLine, wTab_push] at hw
    obtain ⟨w1, e1, e2⟩ := bind_ok hw
    have e1 := commas_text x (n + 1) f (fun a => (g a).render) h (a :: as) _ _ e1
    rw [e1, wTab_pop] at e2
    cases e2
    simp [wTab_write, wTab_newLine, wTab_tabs, renderCall, linesText, linesText_append, String.append_assoc, List.map_map,
      Function.comp_def]

/-- The value that a method returns. -/
def Returns (x : ExtF) (t : SIR) (v : New) : Prop :=
  ∀ r w, writeToken x (wTab 2 (r ++ repeatStr (repeatStr " " 4) 2 ++ "return ")) t = .ok w →
    w.newLine = wTab 2 (r ++ linesText 4 (v.render 2 "return "))

theorem returns_inst (x : ExtF) (id : String) (fs : List StructField) :
    Returns x (.newInstance (.other id) (fs.map (fun f => .assignNamed f.name f.typeId none)))
      (.inst (genName id) (fs.map (fun f => .labelled (x.camel f.name) (genDefault f.typeId)))) := by
  intro r w hw
  simp only [writeToken] at hw
  obtain ⟨w1, e1, hw⟩ := bind_ok hw
  obtain ⟨s, e, rfl⟩ := writeE_ok e1
  have := typeId_render _ s e
  subst this
  have h := call_text x 2 (fun (f : StructField) => .assignNamed f.name f.typeId none)
    (fun f => Arg.labelled (x.camel f.name) (genDefault f.typeId)) (fun f => em_named x 3 f.name f.typeId) fs r
    ("return " ++ genName id) w (by rw [← hw]; simp [wTab_write, genTy, Ty.render, String.append_assoc])
  rw [h]
  rfl

theorem return_dot (s : String) : "return " ++ ("." ++ s) = "return ." ++ s := by
  rw [← String.append_assoc]; rfl

theorem returns_enum (x : ExtF) (i : EnumItem) : Returns x (enumDefault x i) (genEnumDefault x i) := by
  intro r w hw
  cases i with
  | empty p id =>
    simp only [enumDefault, writeToken] at hw
    cases hw
    simp [return_dot, wTab_write, wTab_newLine, genEnumDefault, New.render, linesText, String.append_assoc]
  | tuple p id vs =>
    simp only [enumDefault, writeToken] at hw
    have h := call_text x 2 (fun (v : TupleField) => .assign none v.typeId none)
      (fun v => Arg.plain (genDefault v.typeId)) (fun v => em_plain x 3 v.typeId) vs r
      ("return " ++ "." ++ x.camel id) w (by rw [← hw]; simp [return_dot, wTab_write, String.append_assoc])
    rw [h]
    rfl
  | struct p id fs =>
    simp only [enumDefault, writeToken] at hw
    have h := call_text x 2 (fun (f : StructField) => .assign (some f.name) f.typeId none)
      (fun f => Arg.commented (x.camel f.name) (genDefault f.typeId)) (fun f => em_commented x 3 f.name f.typeId) fs r
      ("return " ++ "." ++ x.camel id) w (by rw [← hw]; simp [return_dot, wTab_write, String.append_assoc])
    rw [h]
    rfl

/-- `static func createDefault`. -/
theorem em_method (x : ExtF) (hx : x.camel "createDefault" = "createDefault") (id : String) {t : SIR} {v : New} (h : Returns x t v) :
    Em x 1 (.method "createDefault" true (.other id) [] [.ret t]) (linesText 4 (Default.mk (genName id) v).render) := by
  have hr : Em x 2 (.ret t) (linesText 4 (v.render 2 "return ")) := by
    intro r w hw
    simp only [writeToken, wTab_tabs, wTab_write] at hw
    obtain ⟨w1, e1, e2⟩ := bind_ok hw
    cases e2
    exact h r w1 e1
  intro r w hw
  simp only [writeToken, if_true] at hw
  obtain ⟨w1, e1, e2⟩ := bind_ok hw
  obtain ⟨s, e, h1⟩ := writelnE_ok e1
  obtain ⟨s', e', h2⟩ := around_ok e
  have h3 := typeId_render _ s' e'
  subst h3
  subst h2
  subst h1
  rw [wTab_writeln, wTab_push] at e2
  have := em_level (ems_one hr) e2
  cases this
  rw [hx]
  simp [wTab_writeln, Default.render, linesText, linesText_append, genTy, Ty.render, String.append_assoc]

theorem em_struct (x : ExtF) (hx : x.camel "createDefault" = "createDefault") (n : StructNode) :
    Em x 0 (structModel n) (linesText 4 (genStruct x n).render) := by
  intro r w hw
  simp only [structModel, writeToken, wTab_writeln, wTab_push] at hw
  have hb := ems_body x "StructField" (fun (f : StructField) => .field f.name f.typeId)
    (fun f => [(1, "var " ++ x.camel f.name ++ ": " ++ (genTy f.typeId).render)]) (fun _ => rfl)
    (fun f => em_field x 1 f.name f.typeId) (fun _ => by simp)
    (fun r => by simp [gaps, gapPairs, KotlinGen.gapStep]) (fun r => by simp [gaps, gapPairs, KotlinGen.gapStep, wTab_newLine])
    rfl (em_method x hx n.id (returns_inst x n.id n.fields)) n.fields
  have := em_level hb hw
  cases this
  rw [← List.map_eq_flatMap]
  simp [wTab_writeln, genStruct, Item.render, linesText, linesText_append, repeatStr, String.append_assoc, List.map_map,
    Function.comp_def]

theorem em_case (x : ExtF) (i : EnumItem) : Em x 1 (enumCase i) (linesText 4 (genCase x i).render) := by
  have key : ∀ {α : Type} (id : String) (as : List α) (f : α → Option String × TypeId),
      Em x 1 (.enumCase id (as.map (fun a => .enumCaseType (f a).1 (f a).2)))
        (linesText 4 (Case.render ⟨x.camel id, as.map (fun a => ((f a).1, genTy (f a).2))⟩)) := by
    intro α id as f r w hw
    simp only [writeToken] at hw
    cases as with
    | nil =>
      rw [List.map_nil, if_pos List.isEmpty_nil] at hw
      cases hw
      simp [wTab_writeln, Case.render]
    | cons a as =>
      rw [if_neg (by simp), wTab_writeln, wTab_push] at hw
      obtain ⟨w1, e1, e2⟩ := bind_ok hw
      have e1 := commas_text x 2 (fun a => .enumCaseType (f a).1 (f a).2) (fun a => renderParam ((f a).1, genTy (f a).2))
        (fun a => em_caseType x 2 _ _) (a :: as) _ _ e1
      rw [e1, wTab_pop] at e2
      cases e2
      simp [wTab_writeln, Case.render, linesText, linesText_append, String.append_assoc, List.map_map, Function.comp_def]
  cases i with
  | empty p id => exact key id ([] : List TupleField) (fun v => (none, v.typeId))
  | tuple p id vs => exact key id vs (fun v => (none, v.typeId))
  | struct p id fs => exact key id fs (fun f => (some f.name, f.typeId))

theorem em_enum (x : ExtF) (hx : x.camel "createDefault" = "createDefault") (n : EnumNode) (i : EnumItem) :
    Em x 0 (.enum n.id (n.items.map enumCase ++ [.method "createDefault" true (.other n.id) [] [.ret (enumDefault x i)]]))
      (linesText 4 (Item.enum (x.pascal n.id) (n.items.map (genCase x)) ⟨genName n.id, genEnumDefault x i⟩).render) := by
  intro r w hw
  simp only [writeToken, wTab_writeln, wTab_push] at hw
  have hb := ems_body x "EnumCase" enumCase (fun i => (genCase x i).render) (fun _ => rfl)
    (fun i => em_case x i) (fun i => by cases i <;> simp only [Case.render] <;> split <;> simp)
    (fun r => by simp [gaps, gapPairs, KotlinGen.gapStep]) (fun r => by simp [gaps, gapPairs, KotlinGen.gapStep, wTab_newLine])
    rfl (em_method x hx n.id (returns_enum x i)) n.items
  have := em_level hb hw
  cases this
  simp [wTab_writeln, Item.render, linesText, linesText_append, repeatStr, String.append_assoc, List.flatMap_map]

/-! ### The file -/

/-- The token `t` prints the declaration `i`. -/
structure Prints (x : ExtF) (t : SIR) (i : Item) : Prop where
  kind : t.kind = "Struct" ∨ t.kind = "Enum"
  text : Em x 0 t (linesText 4 i.render)

theorem prints_item (x : ExtF) (hx : x.camel "createDefault" = "createDefault") (d : ASTNode) (ts : List SIR)
    (h : modelsItem x d = .ok ts) : Each (Prints x) ts (genItem x d) := by
  cases d with
  | struct n => cases h; exact .cons ⟨Or.inl rfl, em_struct x hx n⟩ .nil
  | enum n =>
    simp only [modelsItem, enumModel] at h
    simp only [genItem, genEnum]
    cases e : n.items with
    | nil => rw [e] at h; cases h
    | cons i is =>
      rw [e] at h
      cases h
      refine .cons ⟨Or.inr rfl, ?_⟩ .nil
      rw [← e]
      exact em_enum x hx n i
  | _ => cases h; exact .nil

theorem prints_items (x : ExtF) (hx : x.camel "createDefault" = "createDefault") (S : List ASTNode) (ts : List SIR)
    (h : modelTokens x S = .ok ts) : Each (Prints x) ts (genItems x S) := by
  induction S generalizing ts with
  | nil => cases h; exact .nil
  | cons d ds ih =>
    simp only [modelTokens] at h
    cases e : modelsItem x d with
    | error => rw [e] at h; cases h
    | ok us =>
      rw [e] at h
      cases e' : modelTokens x ds with
      | error => rw [e'] at h; cases h
      | ok vs =>
        rw [e'] at h
        cases h
        exact each_append (prints_item x hx d us e) (ih vs e')

theorem gaps_items {x : ExtF} {t u : SIR} {i j : Item} (h1 : Prints x t i) (h2 : Prints x u j) (r : String) :
    gaps (some t.kind) u.kind (wTab 0 r) = wTab 0 (r ++ "\n") := by
  rcases h1.kind with e1 | e1 <;> rcases h2.kind with e2 | e2 <;> rw [e1, e2] <;>
    simp [gaps, gapPairs, KotlinGen.gapStep, wTab_newLine]

theorem ems_items {x : ExtF} {t : SIR} {i : Item} {ts : List SIR} {is : List Item} (h : Prints x t i)
    (hs : Each (Prints x) ts is) {last : Option String} {g : String}
    (hg : ∀ r, gaps last t.kind (wTab 0 r) = wTab 0 (r ++ g)) :
    Ems x 0 last (t :: ts) (g ++ linesText 4 (renderItems (i :: is))) := by
  induction hs generalizing t i last g with
  | nil =>
    have := ems_cons hg h.text (ems_nil x 0 _)
    simpa [renderItems, joinBlocks] using this
  | @cons u j ts is hu hs ih =>
    have h2 := ih hu (gaps_items h hu)
    have := ems_cons hg h.text h2
    simpa [renderItems, joinBlocks, linesText, linesText_append, repeatStr, String.append_assoc] using this

/-- **The text is the rendering of the tree.** -/
theorem models_text (x : ExtF) (hx : x.camel "createDefault" = "createDefault") (S : List ASTNode) (out : String)
    (h : models x S = .ok out) : out = linesText 4 (renderItems (genItems x S)) := by
  simp only [models] at h
  cases e : modelTokens x S with
  | error => rw [e] at h; cases h
  | ok ts =>
    rw [e] at h
    simp only [stringify] at h
    have hp := prints_items x hx S ts e
    cases e' : writeTokens x none Writer.default ts with
    | error => rw [e'] at h; cases h
    | ok w =>
      rw [e'] at h
      cases h
      cases hq : genItems x S with
      | nil =>
        rw [hq] at hp
        cases hp
        cases e'
        rfl
      | cons i is =>
        rw [hq] at hp
        cases hp with
        | cons h1 h2 =>
          have := ems_items h1 h2 (fun r => gaps_none _ 0 r) _ _ (show writeTokens x none (wTab 0 "") _ = .ok w from e')
          rw [this]
          simp [Writer.show, wTab]

end TPB.SwiftGen
