/- Printing a Kotlin or Swift declaration tree keeps the writer's indentation. -/
import Verif.Model.KotlinGen
import Verif.Model.SwiftGen
namespace TPB

/-- A step of a printer that started at the indentation of `w`: it ends there, and it does not fail by
closing a level that is not open. -/
def Keeps (w : Writer) (m : Except Panic Writer) : Prop :=
  match m with
  | .ok w' => w'.constTabs = w.constTabs ∧ w'.tab = w.tab
  | .error e => e ≠ tabPanic

/-- Two writers with the same indentation. -/
def SameTabs (w w' : Writer) : Prop := w'.constTabs = w.constTabs ∧ w'.tab = w.tab

theorem SameTabs.refl (w : Writer) : SameTabs w w := ⟨rfl, rfl⟩

theorem keeps_ok {w w' : Writer} (h : SameTabs w w') : Keeps w (.ok w') := h

theorem keeps_bind {w : Writer} {m : Except Panic Writer} {f : Writer → Except Panic Writer} (h : Keeps w m)
    (hf : ∀ w', SameTabs w w' → Keeps w (f w')) : Keeps w (m >>= f) := by
  cases m with
  | ok w' => exact hf w' h
  | error e => exact h

theorem keeps_same {w v : Writer} {m : Except Panic Writer} (h : SameTabs w v) (hm : Keeps v m) : Keeps w m := by
  cases m with
  | ok w' => exact ⟨hm.1.trans h.1, hm.2.trans h.2⟩
  | error e => exact hm

/-- A level is opened, something is printed in it, the level is closed, and printing goes on. -/
theorem keeps_level {w : Writer} (v : Writer) {m : Except Panic Writer} {f : Writer → Except Panic Writer}
    (hv : SameTabs w v) (h : Keeps v.pushTab m) (hf : ∀ w', SameTabs w w' → Keeps w (f w')) :
    Keeps w (m >>= fun u => popTabE u >>= f) := by
  cases m with
  | error e => exact h
  | ok u =>
    have hp : ∃ u', popTabE u = .ok u' ∧ SameTabs w u' := by
      refine ⟨{ u with constTabs := v.constTabs }, ?_, hv.1, h.2.trans hv.2⟩
      have h1 : u.constTabs = v.constTabs + 1 := h.1
      simp [popTabE, Writer.popTab, h1]
    obtain ⟨u', e, hs⟩ := hp
    show Keeps w (popTabE u >>= f)
    rw [e]
    exact hf u' hs

section
variable {w v : Writer} (h : SameTabs w v)
include h
theorem SameTabs.write (s : String) : SameTabs w (v.write s) := h
theorem SameTabs.writeln (s : String) : SameTabs w (v.writeln s) := h
theorem SameTabs.writeTabs : SameTabs w v.writeTabs := h
theorem SameTabs.newLine : SameTabs w v.newLine := h
theorem SameTabs.ite (c : Prop) [Decidable c] {v' : Writer} (h' : SameTabs w v') : SameTabs w (if c then v' else v) := by
  split <;> assumption
theorem SameTabs.gapStep (a b : String) (p : String × String) : SameTabs w (KotlinGen.gapStep a b v p) := by
  unfold KotlinGen.gapStep
  split <;> exact h
theorem SameTabs.gapsFold (a b : String) (ps : List (String × String)) :
    SameTabs w (ps.foldl (KotlinGen.gapStep a b) v) := by
  induction ps generalizing v with
  | nil => exact h
  | cons p ps ih => exact ih (h.gapStep a b p)
theorem SameTabs.kgaps (l : Option String) (c : String) : SameTabs w (KotlinGen.gaps l c v) := by
  cases l with
  | none => exact h
  | some l => exact h.gapsFold l c _
theorem SameTabs.sgaps (l : Option String) (c : String) : SameTabs w (SwiftGen.gaps l c v) := by
  cases l with
  | none => exact h
  | some l => exact h.gapsFold l c _
end

/-- The text of an error is not that of closing a level. -/
def Calm {α : Type} (m : Except Panic α) : Prop := ∀ e, m = .error e → e ≠ tabPanic

theorem keeps_writeE {w v : Writer} {s : Except Panic String} (h : SameTabs w v) (hs : Calm s) :
    Keeps w (KotlinGen.writeE v s) := by
  cases s with
  | ok s => exact h
  | error e => exact hs e rfl

theorem keeps_writelnE {w v : Writer} {s : Except Panic String} (h : SameTabs w v) (hs : Calm s) :
    Keeps w (SwiftGen.writelnE v s) := by
  cases s with
  | ok s => exact h
  | error e => exact hs e rfl

theorem calm_ok {α : Type} (a : α) : Calm (.ok a : Except Panic α) := by intro e h; cases h

theorem calm_gen {α : Type} (m : String) (h : m ≠ "attempt to subtract with overflow") :
    Calm (.error (.gen m) : Except Panic α) := by
  intro e he
  cases he
  intro hc
  exact h (by injection hc)

theorem calm_ite {α : Type} (c : Prop) [Decidable c] {a b : Except Panic α} (ha : Calm a) (hb : Calm b) :
    Calm (if c then a else b) := by split <;> assumption

macro "calm" : tactic => `(tactic| (repeat' first | exact calm_ok _ | exact calm_gen _ (by decide) | refine calm_ite _ ?_ ?_))

namespace KotlinGen

mutual
theorem calm_typeId (t : TypeId) : Calm (typeId t) := by
  match t with
  | .integer _ _ _ => unfold typeId; calm
  | .number _ _ => unfold typeId; calm
  | .bool _ => unfold typeId; calm
  | .char _ => unfold typeId; calm
  | .other _ => unfold typeId; calm
  | .generic id gs =>
    have h := calm_typeIds gs
    unfold typeId
    split
    · rename_i e he; intro e' h'; cases h'; exact h _ he
    · calm
theorem calm_typeIds (ts : List TypeId) : Calm (typeIds ts) := by
  match ts with
  | [] => unfold typeIds; calm
  | t :: ts =>
    have h1 := calm_typeId t
    have h2 := calm_typeIds ts
    unfold typeIds
    split
    · rename_i e he; intro e' h'; cases h'; exact h1 _ he
    · split
      · rename_i e he; intro e' h'; cases h'; exact h2 _ he
      · calm
end

theorem calm_constValue (x : ExtF) (t : TypeId) (v : ConstValue) : Calm (constValue x t v) := by
  unfold constValue literalPanic
  split
  · calm
  · split <;> calm
  · split <;> calm
  · calm

theorem calm_defaultValue (t : TypeId) : Calm (defaultValue t) := by
  cases t with
  | generic id gs =>
    simp only [defaultValue]
    split
    · calm
    · split
      · rename_i e he; intro e' h'; cases h'; exact calm_typeIds _ _ he
      · calm
  | _ => unfold defaultValue; calm

mutual
theorem keeps_token (x : ExtF) (t : KIR) (w : Writer) : Keeps w (writeToken x w t) := by
  have r := SameTabs.refl w
  match t with
  | .gap => unfold writeToken; exact r.newLine
  | .id s => unfold writeToken; exact r.write s
  | .object id body ext =>
    unfold writeToken
    refine keeps_bind ?_ (fun w1 h1 => ?_)
    · split
      · exact (r.writeTabs).write _
      · exact keeps_same ((r.writeTabs.write _).write _) (keeps_separated x ", " ext _)
    · split
      · exact h1.newLine
      · exact keeps_level _ (h1.write " {").newLine (keeps_tokens x body none _) (fun w2 h2 => h2.writeln _)
  | .decl body sep =>
    unfold writeToken
    refine keeps_bind (keeps_same r.writeTabs (keeps_token x body _)) (fun w1 h1 => ?_)
    cases sep with
    | none => exact h1.newLine
    | some s => exact (h1.write s).newLine
  | .val id isConst type value =>
    unfold writeToken
    refine keeps_bind (keeps_same ?_ (keeps_token x type _)) (fun w1 h1 => ?_)
    · cases isConst
      · exact (r.write _).write _
      · exact ((r.write _).write _).write _
    · match value with
      | some v => exact keeps_same (h1.write _) (keeps_token x v _)
      | none => exact h1
  | .type t => unfold writeToken; exact keeps_writeE r (calm_typeId t)
  | .constValue t v => unfold writeToken; exact keeps_writeE r (calm_constValue x t v)
  | .defaultValue t => unfold writeToken; exact keeps_writeE r (calm_defaultValue t)
  | .cls id isData ext fields body =>
    unfold writeToken
    have r1 : SameTabs w ((if isData = true then w.writeTabs.write "data " else w.writeTabs).write ("class " ++ x.pascal id ++ "(")) := by
      cases isData
      · exact r
      · exact r
    refine keeps_bind ?_ (fun w1 h1 => keeps_bind ?_ (fun w2 h2 => ?_))
    · split
      · exact r1.write _
      · exact keeps_level _ r1.newLine (keeps_tokens x fields none _) (fun w2 h2 => h2.write _)
    · split
      · exact h1
      · exact keeps_same (h1.write _) (keeps_separated x ", " ext _)
    · split
      · exact h2.newLine
      · exact keeps_level _ (h2.write " {").newLine (keeps_tokens x body none _) (fun w2 h2 => h2.writeln _)
  | .interface id isSealed body =>
    unfold writeToken
    refine keeps_level _ ?_ (keeps_tokens x body none _) (fun w2 h2 => h2.writeln _)
    cases isSealed <;> exact r
  | .companion body =>
    unfold writeToken
    exact keeps_level _ (r.writeln _) (keeps_tokens x body none _) (fun w2 h2 => h2.writeln _)
  | .funInline id args ret body =>
    unfold writeToken
    refine keeps_bind ?_ (fun w1 h1 => keeps_bind (keeps_same (h1.write _) (keeps_token x ret _)) (fun w2 h2 =>
      keeps_bind (keeps_same (h2.write _) (keeps_token x body _)) (fun w3 h3 => h3.newLine)))
    split
    · exact r
    · exact keeps_level _ ((r.writeTabs.write _).newLine) (keeps_tokens x args none _) (fun w2 h2 => h2.newLine)
  | .fn id args ret body =>
    unfold writeToken
    refine keeps_bind ?_ (fun w1 h1 => keeps_bind (keeps_same (h1.write _) (keeps_token x ret _)) (fun w2 h2 =>
      keeps_level _ (h2.write _).newLine (keeps_tokens x body none _) (fun w3 h3 => h3.newLine)))
    split
    · exact r
    · exact keeps_level _ ((r.writeTabs.write _).newLine) (keeps_tokens x args none _) (fun w2 h2 => h2.newLine)
  | .call id args =>
    unfold writeToken
    simp only
    split
    · exact r
    · exact keeps_level _ ((r.write id).write "(").newLine (keeps_tokens x args none _)
        (fun w2 h2 => h2.writeTabs.write _)
  | .assign id v => unfold writeToken; exact keeps_same (r.write _) (keeps_token x v _)
theorem keeps_tokens (x : ExtF) (ts : List KIR) (last : Option String) (w : Writer) :
    Keeps w (writeTokens x last w ts) := by
  match ts with
  | [] => unfold writeTokens; exact SameTabs.refl w
  | t :: ts =>
    unfold writeTokens
    exact keeps_bind (keeps_same ((SameTabs.refl w).kgaps _ _) (keeps_token x t _))
      (fun w1 h1 => keeps_same h1 (keeps_tokens x ts _ _))
theorem keeps_separated (x : ExtF) (sep : String) (ts : List KIR) (w : Writer) :
    Keeps w (writeSeparated x sep w ts) := by
  match ts with
  | [] => unfold writeSeparated; exact SameTabs.refl w
  | t :: ts =>
    unfold writeSeparated
    refine keeps_bind (keeps_token x t _) (fun w1 h1 => keeps_same ?_ (keeps_separated x sep ts _))
    split
    · exact h1
    · exact h1.write _
end

end KotlinGen

namespace SwiftGen

mutual
theorem calm_typeId (t : TypeId) : Calm (typeId t) := by
  match t with
  | .integer _ _ _ => unfold typeId; calm
  | .number _ _ => unfold typeId; calm
  | .bool _ => unfold typeId; calm
  | .char _ => unfold typeId; calm
  | .other _ => unfold typeId; calm
  | .generic id gs =>
    have h := calm_typeIds gs
    unfold typeId
    split
    · rename_i e he; intro e' h'; cases h'; exact h _ he
    · calm
theorem calm_typeIds (ts : List TypeId) : Calm (typeIds ts) := by
  match ts with
  | [] => unfold typeIds; calm
  | t :: ts =>
    have h1 := calm_typeId t
    have h2 := calm_typeIds ts
    unfold typeIds
    split
    · rename_i e he; intro e' h'; cases h'; exact h1 _ he
    · split
      · rename_i e he; intro e' h'; cases h'; exact h2 _ he
      · calm
end

theorem calm_constValue (x : ExtF) (t : TypeId) (v : ConstValue) : Calm (constValue x v t) := by
  unfold constValue KotlinGen.literalPanic
  split
  · calm
  · split <;> calm
  · split <;> calm
  · calm

theorem calm_defaultValue (t : TypeId) : Calm (defaultValue t) := by
  cases t with
  | generic id gs =>
    simp only [defaultValue]
    split
    · calm
    · split
      · rename_i e he; intro e' h'; cases h'; exact calm_typeIds _ _ he
      · calm
  | _ => unfold defaultValue; calm

theorem calm_around {a b : String} {s : Except Panic String} (h : Calm s) : Calm (around a s b) := by
  cases s with
  | ok s => exact calm_ok _
  | error e => exact h

theorem calm_constLine (x : ExtF) (id : String) (t : TypeId) (v : ConstValue) : Calm (constLine x id t v) := by
  unfold constLine
  split
  · rename_i e he; intro e' h'; cases h'; exact calm_typeId _ _ he
  · exact calm_around (calm_constValue x t v)

mutual
theorem keeps_token (x : ExtF) (t : SIR) (w : Writer) : Keeps w (writeToken x w t) := by
  have r := SameTabs.refl w
  match t with
  | .struct id body =>
    unfold writeToken
    exact keeps_level _ (r.writeln _) (keeps_tokens x body none _) (fun w2 h2 => h2.writeln _)
  | .enum id body =>
    unfold writeToken
    exact keeps_level _ (r.writeln _) (keeps_tokens x body none _) (fun w2 h2 => h2.writeln _)
  | .constField id t v => unfold writeToken; exact keeps_writelnE r (calm_constLine x id t v)
  | .field id t => unfold writeToken; exact keeps_writelnE r (calm_around (calm_typeId t))
  | .method id isStatic ret args body =>
    unfold writeToken
    refine keeps_bind ?_ (fun w1 h1 => keeps_level _ h1 (keeps_tokens x body none _) (fun w2 h2 => h2.writeln _))
    split <;> exact keeps_writelnE r (calm_around (calm_typeId ret))
  | .funArg _ _ _ => unfold writeToken; exact r
  | .ret body =>
    unfold writeToken
    exact keeps_bind (keeps_same (r.writeTabs.write _) (keeps_token x body _)) (fun w1 h1 => h1.newLine)
  | .newInstance t body =>
    unfold writeToken
    refine keeps_bind (keeps_writeE r (calm_typeId t)) (fun w1 h1 => ?_)
    split
    · exact h1
    · exact keeps_level _ (h1.write "(").newLine (keeps_commas x body _) (fun w2 h2 => h2.writeTabs.write _)
  | .assignNamed id t value =>
    unfold writeToken
    match value with
    | some v => exact keeps_same (r.write _) (keeps_token x v _)
    | none => exact keeps_writeE r (calm_around (calm_defaultValue t))
  | .assign id t value =>
    unfold writeToken
    have r1 : SameTabs w (match id with
      | some id => w.write ("/* " ++ x.camel id ++ " */ ")
      | none => w) := by cases id <;> exact r
    match value with
    | some v => exact keeps_same r1 (keeps_token x v _)
    | none => exact keeps_writeE r1 (calm_defaultValue t)
  | .staticCall _ _ => unfold writeToken; exact r
  | .call id args =>
    unfold writeToken
    simp only
    split
    · exact r
    · exact keeps_level _ ((r.write id).write "(").newLine (keeps_commas x args _) (fun w2 h2 => h2.writeTabs.write _)
  | .enumCase id params =>
    unfold writeToken
    split
    · exact r
    · exact keeps_level _ (r.writeln _) (keeps_commas x params _) (fun w2 h2 => h2.writeln _)
  | .enumCaseType id t =>
    unfold writeToken
    match id with
    | some id => exact keeps_writeE r (calm_around (calm_typeId t))
    | none => exact keeps_writeE r (calm_typeId t)
  | .fieldAccess inst field =>
    unfold writeToken
    match inst with
    | some i => exact keeps_bind (keeps_token x i _) (fun w1 h1 => h1.write _)
    | none => exact r
theorem keeps_tokens (x : ExtF) (ts : List SIR) (last : Option String) (w : Writer) :
    Keeps w (writeTokens x last w ts) := by
  match ts with
  | [] => unfold writeTokens; exact SameTabs.refl w
  | t :: ts =>
    unfold writeTokens
    exact keeps_bind (keeps_same ((SameTabs.refl w).sgaps _ _) (keeps_token x t _))
      (fun w1 h1 => keeps_same h1 (keeps_tokens x ts _ _))
theorem keeps_commas (x : ExtF) (ts : List SIR) (w : Writer) : Keeps w (writeCommas x w ts) := by
  match ts with
  | [] => unfold writeCommas; exact SameTabs.refl w
  | t :: ts =>
    unfold writeCommas
    refine keeps_bind (keeps_same (SameTabs.refl w).writeTabs (keeps_token x t _))
      (fun w1 h1 => keeps_same ?_ (keeps_commas x ts _))
    split
    · exact h1
    · exact h1
end

end SwiftGen
end TPB
