import Verif.Proofs.Output
namespace TPB
open Spec

/-- Empty, or ending in a newline. -/
def NL (s : String) : Prop := s = "" ∨ ∃ u, s = u ++ "\n"

theorem NL.append {a b : String} (ha : NL a) (hb : NL b) : NL (a ++ b) := by
  rcases hb with rfl | ⟨u, rfl⟩
  · simpa using ha
  · exact .inr ⟨a ++ u, by rw [String.append_assoc]⟩

theorem NL.writeln (w : Writer) (s : String) : NL (w.writeln s).res := .inr ⟨_, rfl⟩
theorem NL.writelnTab (w : Writer) (t : Nat) (s : String) : NL (w.writelnTab t s).res := .inr ⟨_, rfl⟩
theorem NL.write {w : Writer} {s : String} (hw : NL w.res) (hs : NL s) : NL (w.write s).res := hw.append hs

theorem NL.on {sw : Bool} {t : String} (h : NL t) : NL (on sw t) := by
  unfold Spec.on
  split
  · exact NL.append (.inr ⟨"", by simp⟩) h
  · exact .inl rfl

theorem NL.trimOnce {s : String} (h : NL s) : NL (trimOnce s) := by
  unfold TPB.trimOnce
  split
  · rename_i cs h2
    right
    refine ⟨String.ofList cs.reverse, ?_⟩
    apply String.toList_injective
    simp
  · exact h

theorem NL.foldl {α : Type} {f : Writer → α → Writer} (h : ∀ w x, NL w.res → NL (f w x).res) (xs : List α)
    {w : Writer} (hw : NL w.res) : NL (xs.foldl f w).res := by
  induction xs generalizing w with
  | nil => exact hw
  | cons x xs ih => exact ih (h w x hw)

theorem NL.foldIdx {α : Type} {f : Writer → Nat → α → Writer} (h : ∀ w i x, NL w.res → NL (f w i x).res)
    (xs : List α) {w : Writer} (hw : NL w.res) (i : Nat) : NL (TPB.foldIdx f i xs w).res := by
  induction xs generalizing w i with
  | nil => exact hw
  | cons x xs ih => exact ih (h w i x hw) _

theorem NL.loopM {α : Type} {f : Writer → α → Except Panic Writer}
    (h : ∀ w x w', NL w.res → f w x = .ok w' → NL w'.res) (xs : List α)
    {w w' : Writer} (hw : NL w.res) (hr : DartGen.loopM f xs w = .ok w') : NL w'.res := by
  induction xs generalizing w with
  | nil =>
    simp only [DartGen.loopM, Except.ok.injEq] at hr
    subst hr; exact hw
  | cons x xs ih =>
    unfold DartGen.loopM at hr
    cases hf : f w x with
    | error e => rw [hf] at hr; simp at hr
    | ok v => rw [hf] at hr; exact ih (h w x v hw hf) hr

theorem NL.empty4 : NL Writer.default.res := .inl rfl
theorem NL.empty2 : NL (Writer.new 2).res := .inl rfl

theorem NL.importLines {pre post : String} {vs : List ConstValue} {t : String}
    (h : importLines pre post vs = some t) : NL t := by
  induction vs generalizing t with
  | nil => simp only [Spec.importLines, Option.some.injEq] at h; exact .inl h.symm
  | cons v vs ih =>
    unfold Spec.importLines at h
    split at h
    · rename_i s rest _ hr
      simp only [Option.some.injEq] at h
      subst h
      exact NL.append (.inr ⟨_, rfl⟩) (ih hr)
    · simp at h

/-! ### Rust -/

theorem rust_models_NL {S : List ASTNode} {s : String} (h : RustGen.models S = .ok s) : NL s := by
  have key : ∀ (S : List ASTNode) (w w' : Writer), NL w.res → RustGen.modelsLoop w S = .ok w' → NL w'.res := by
    intro S
    induction S with
    | nil => intro w w' hw h; simp only [RustGen.modelsLoop, Except.ok.injEq] at h; subst h; exact hw
    | cons d S ih =>
      intro w w' hw h
      cases d with
      | struct n => exact ih _ _ (NL.writeln _ _) h
      | enum n =>
        simp only [RustGen.modelsLoop] at h
        split at h
        · simp at h
        · exact ih _ _ (NL.writeln _ _) h
      | _ => exact ih _ _ hw h
  unfold RustGen.models at h
  split at h
  · simp at h
  · rename_i w hw
    simp only [Except.ok.injEq] at h
    subst h
    exact NL.trimOnce (key S _ _ NL.empty4 hw)

theorem rust_buffers_NL (S : List ASTNode) : NL (RustGen.buffers S) := by
  refine NL.trimOnce (NL.foldl (fun w d hw => ?_) S NL.empty4)
  cases d <;> first | exact NL.writeln _ _ | exact hw

theorem rust_consts_NL (x : Ext) (S : List ASTNode) : NL (RustGen.consts x S) := by
  refine NL.trimOnce (NL.foldl (fun w d hw => ?_) S NL.empty4)
  cases d <;> first | exact NL.writeln _ _ | exact hw

theorem rust_rpc_NL {S : List ASTNode} {s : String} (h : RustGen.rpc S = .ok s) : NL s := by
  unfold RustGen.rpc at h
  split at h
  · simp only [Except.ok.injEq] at h; exact .inl h.symm
  · split at h
    · simp at h
    · simp only [Except.ok.injEq] at h
      subst h
      refine NL.trimOnce (NL.foldl (fun w d hw => ?_) S (NL.writeln _ _))
      cases d <;> first | exact NL.writeln _ _ | exact hw

/-! ### Dart -/

theorem dart_structModel_NL (x : Ext) (n : StructNode) (d : String) (g : Bool) : NL (DartGen.structModel x n d g) := by
  unfold DartGen.structModel
  simp only
  split
  · split
    · exact NL.writeln _ _
    · exact NL.writeln _ _
  · split
    · exact NL.writeln _ _
    · exact NL.writeln _ _

theorem dart_enumModel_NL {x : Ext} {n : EnumNode} {s : String} (h : DartGen.enumModel x n = .ok s) : NL s := by
  unfold DartGen.enumModel at h
  simp only at h
  split at h
  · simp at h
  · simp only [Except.ok.injEq] at h
    subst h
    refine NL.foldIdx (fun w i item hw => ?_) n.items (NL.writeln _ _) 0
    unfold DartGen.enumItemClass
    simp only
    split
    · exact NL.writeln _ _
    · exact NL.write hw (dart_structModel_NL _ _ _ _)

theorem dart_models_NL {x : Ext} {S : List ASTNode} {s : String} (h : DartGen.models x S = .ok s) : NL s := by
  unfold DartGen.models at h
  split at h
  · simp at h
  · rename_i w hw
    simp only [Except.ok.injEq] at h
    subst h
    refine NL.trimOnce (NL.loopM (fun w d w' hw h => ?_) S NL.empty2 hw)
    unfold DartGen.modelsItem at h
    split at h
    · simp only [Except.ok.injEq] at h; subst h; exact NL.writeln _ _
    · split at h
      · simp at h
      · rename_i he
        simp only [Except.ok.injEq] at h
        subst h
        exact NL.write hw (dart_enumModel_NL he)
    · simp only [Except.ok.injEq] at h; subst h; exact hw

theorem dart_buffers_NL {x : Ext} {S : List ASTNode} {s : String} (h : DartGen.buffers x S = .ok s) : NL s := by
  unfold DartGen.buffers at h
  split at h
  · simp at h
  · rename_i w hw
    simp only [Except.ok.injEq] at h
    subst h
    refine NL.trimOnce (NL.loopM (fun w d w' hw h => ?_) S NL.empty2 hw)
    unfold DartGen.buffersItem at h
    split at h
    · split at h
      · simp at h
      · simp only [Except.ok.injEq] at h; subst h; exact NL.writeln _ _
    · split at h
      · simp at h
      · simp only [Except.ok.injEq] at h; subst h; exact NL.writeln _ _
    · simp only [Except.ok.injEq] at h; subst h; exact hw

mutual
theorem dart_constClassImpl_NL (x : Ext) (pre id : String) (items : List ConstItem) :
    NL (DartGen.constClassImpl x pre id items) := by
  unfold DartGen.constClassImpl
  exact dart_constChildren_NL x _ _ items (NL.writeln _ _)
termination_by (sizeOf items, 1)

theorem dart_constChildren_NL (x : Ext) (pre : String) (w : Writer) (items : List ConstItem) (hw : NL w.res) :
    NL (DartGen.constChildren x pre w items).res := by
  match items with
  | [] => unfold DartGen.constChildren; exact hw
  | .value _ _ _ :: rest =>
    unfold DartGen.constChildren
    exact dart_constChildren_NL x pre w rest hw
  | .node id items :: rest =>
    unfold DartGen.constChildren
    exact dart_constChildren_NL x pre _ rest (NL.write (NL.writeln _ _) (dart_constClassImpl_NL x pre id items))
termination_by (sizeOf items, 0)
end

theorem dart_consts_NL (x : Ext) (S : List ASTNode) : NL (DartGen.consts x S) := by
  refine NL.trimOnce (NL.foldl (fun w d hw => ?_) S (NL.foldl (fun w d hw => ?_) S NL.empty2))
  · cases d <;> first | exact NL.write (NL.writeln _ _) (dart_constClassImpl_NL _ _ _ _) | exact hw
  · cases d <;> first | exact NL.write hw (NL.writelnTab _ _ _) | exact hw

theorem dart_rpc_NL {x : Ext} {S : List ASTNode} {s : String} (h : DartGen.rpcMethods x S = .ok s) : NL s := by
  unfold DartGen.rpcMethods at h
  simp only at h
  split at h
  · simp only [Except.ok.injEq] at h; exact .inl h.symm
  · split at h
    · simp at h
    · split at h
      · simp at h
      · split at h
        · simp at h
        · simp only [Except.ok.injEq] at h; subst h; exact NL.writeln _ _

/-! ### The end of the file -/

/-- A text that starts with something other than a newline and ends in a newline is stripped to a text
that ends in exactly one newline. -/
theorem strips_ends {t s : String} (h : StripsTo t s) (c : Char) (r : String) (hc : c ≠ '\n')
    (hst : t = String.singleton c ++ r) (hnl : NL r) (hr : r ≠ "") : EndsInOneNewline s := by
  obtain ⟨⟨k, hk, hks⟩, hno⟩ := h
  have hs : ∃ u, s = u ++ "\n" := by
    rcases hks with rfl | hs
    · rcases hnl with rfl | ⟨u, rfl⟩
      · exact absurd rfl hr
      · refine ⟨String.singleton c ++ u, ?_⟩
        rw [hst] at hk
        simpa [repeatStr, String.append_assoc] using hk.symm
    · exact hs
  obtain ⟨u, rfl⟩ := hs
  have hu : u.toList ≠ [] := by
    intro e
    have hu : u = "" := String.toList_injective e
    subst hu
    rw [hst] at hk
    have := congrArg (fun s => s.toList.head?) hk
    simp at this
    exact hc this
  obtain ⟨l, d, hl⟩ : ∃ l d, u.toList = l ++ [d] := ⟨_, _, (List.dropLast_concat_getLast hu).symm⟩
  refine ⟨String.ofList l, d, ?_, ?_⟩
  · intro e
    subst e
    refine hno ⟨String.ofList l, String.toList_injective ?_⟩
    simp [hl]
  · apply String.toList_injective
    simp [hl]

end TPB
