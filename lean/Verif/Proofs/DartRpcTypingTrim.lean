/- Empty lines of a client class do not matter to the Dart compiler. -/
import Verif.Spec.DartRpcTyping
import Verif.Proofs.DartRpcReader
namespace TPB.Spec.DartRules
open Dart

/-- Nothing follows a statement that returns. -/
def RetLast : List RStmt → Prop
  | [] => True
  | .ret _ :: r => r = []
  | _ :: r => RetLast r

def RetLastD : List DStmt → Prop
  | [] => True
  | .retResult :: r => r = []
  | .retFuture :: r => r = []
  | .syncRead _ _ _ b :: r => RetLast b ∧ RetLastD r
  | .connect _ _ _ b :: r => RetLast b ∧ RetLastD r
  | _ :: r => RetLastD r

/-- What surrounds a statement in the class without empty lines. -/
def ClassEnv.trim (E : ClassEnv) : ClassEnv := { E with c := E.c.trim }

theorem classNames_trim (c : Client) : classNames c.trim = classNames c := by
  have : ∀ ms : List Member, (ms.filter Member.solid).flatMap memberName = ms.flatMap memberName := by
    intro ms
    induction ms with
    | nil => rfl
    | cons m ms ih =>
      cases hs : m.solid with
      | true => rw [List.filter_cons_of_pos hs, List.flatMap_cons, List.flatMap_cons, ih]
      | false =>
        have : m = .blank := by cases m <;> simp [Member.solid] at hs ⊢
        rw [List.filter_cons_of_neg (by simp [hs]), List.flatMap_cons, this, ih]
        rfl
  unfold classNames Client.trim
  simp only
  rw [this, List.map_map]
  rfl

variable {E : ClassEnv}

theorem lib_trim (n : String) : E.trim.Lib n ↔ E.Lib n := by
  unfold ClassEnv.Lib ClassEnv.trim
  simp only [classNames_trim]
  exact Iff.rfl

theorem result_trim (t : Ty) : E.trim.Result t ↔ E.Result t := by
  unfold ClassEnv.Result ClassEnv.trim
  simp only [classNames_trim]

theorem member_trim {m : Member} (h : m.solid = true) : m ∈ E.trim.c.members ↔ m ∈ E.c.members := by
  unfold ClassEnv.trim Client.trim
  simp only [List.mem_filter, h, and_true]

theorem wstmt_trim (V : Scope) (w : WStmt) : WStmtTyped E.trim V w ↔ WStmtTyped E V w := by
  cases w with
  | status => simp only [WStmtTyped, lib_trim]
  | methodId => simp only [WStmtTyped]
  | arg w => simp only [WStmtTyped, ClassEnv.trim, classNames_trim]

theorem readerLocals_trim : ∀ b : List RStmt, readerLocals (trimR b) = readerLocals b := by
  intro b
  induction b with
  | nil => rfl
  | cons s b ih =>
    cases s <;> simp only [trimR, List.filter_cons, RStmt.solid, if_true, Bool.false_eq_true, if_false, readerLocals] <;>
      first | exact ih | exact congrArg _ ih

theorem reader_trim (N : List String) (ret : Option Ty) : ∀ (b : List RStmt) (vs : List (String × Ty)), RetLast b →
    (ReaderTyped E.trim N ret vs (trimR b) ↔ ReaderTyped E N ret vs b) := by
  intro b
  induction b with
  | nil => intro vs _; exact Iff.rfl
  | cons s b ih =>
    intro vs hl
    cases s with
    | letStatus =>
      show ReaderTyped E.trim N ret vs (.letStatus :: trimR b) ↔ _
      simp only [ReaderTyped]; exact ih _ hl
    | ifNoData throws =>
      show ReaderTyped E.trim N ret vs (.ifNoData throws :: trimR b) ↔ _
      simp only [ReaderTyped, lib_trim, ih vs hl]
    | letMethodId =>
      show ReaderTyped E.trim N ret vs (.letMethodId :: trimR b) ↔ _
      simp only [ReaderTyped]; exact ih _ hl
    | letResult e =>
      show ReaderTyped E.trim N ret vs (.letResult e :: trimR b) ↔ _
      simp only [ReaderTyped, fun t => ih (("result", t) :: vs) hl]
      simp only [ClassEnv.trim, classNames_trim]
    | complete v res =>
      show ReaderTyped E.trim N ret vs (.complete v res :: trimR b) ↔ _
      simp only [ReaderTyped, ih vs hl, fun t => member_trim (E := E) (m := .completers v t) rfl]
    | remove v =>
      show ReaderTyped E.trim N ret vs (.remove v :: trimR b) ↔ _
      simp only [ReaderTyped, ih vs hl, fun t => member_trim (E := E) (m := .completers v t) rfl]
    | add v res =>
      show ReaderTyped E.trim N ret vs (.add v res :: trimR b) ↔ _
      simp only [ReaderTyped, ih vs hl, fun t => member_trim (E := E) (m := .controller v t) rfl]
    | ret e =>
      show ReaderTyped E.trim N ret vs (.ret e :: trimR b) ↔ _
      simp only [RetLast] at hl
      subst hl
      simp only [ReaderTyped, ClassEnv.trim, classNames_trim, trimR, List.filter_nil]
    | blank =>
      show ReaderTyped E.trim N ret vs (trimR b) ↔ _
      simp only [ReaderTyped]; exact ih _ hl

theorem closure_trim (N : List String) (ret : Option Ty) {b : List RStmt} (h : RetLast b) :
    ReaderClosure E.trim N ret (trimR b) ↔ ReaderClosure E N ret b := by
  unfold ReaderClosure
  rw [readerLocals_trim, reader_trim _ _ _ _ h]

theorem bodyLocals_trim : ∀ b : List DStmt, bodyLocals (trimD b) = bodyLocals b := by
  intro b
  induction b with
  | nil => rfl
  | cons s b ih =>
    cases s <;> simp only [trimD, List.filter_cons, DStmt.solid, if_true, Bool.false_eq_true, if_false, List.map_cons, DStmt.trim, bodyLocals] <;>
      first | exact ih | exact congrArg _ ih

theorem bodyScope_trim (m : DMethod) (vs : List (String × Ty)) : bodyScope m.trim vs = bodyScope m vs := by
  unfold bodyScope DMethod.trim
  simp only [bodyLocals_trim]

theorem callTyped_trim (N : List String) (a : Nat) : CallTyped E.trim N a ↔ CallTyped E N a := by
  unfold CallTyped
  rw [lib_trim]

theorem body_trim (m : DMethod) : ∀ (b : List DStmt) (vs : List (String × Ty)), RetLastD b →
    (BodyStmts E.trim m.trim vs (trimD b) ↔ BodyStmts E m vs b) := by
  intro b
  induction b with
  | nil => intro vs _; exact Iff.rfl
  | cons s b ih =>
    intro vs hl
    cases s with
    | write y a u ws =>
      show BodyStmts E.trim m.trim vs (.write y a u ws :: trimD b) ↔ _
      simp only [BodyStmts, bodyScope_trim, callTyped_trim, wstmt_trim, ih vs hl]
    | loop =>
      show BodyStmts E.trim m.trim vs (.loop :: trimD b) ↔ _
      simp only [BodyStmts, bodyScope_trim, ih vs hl]
    | syncRead ty a u body =>
      show BodyStmts E.trim m.trim vs (.syncRead ty a u (trimR body) :: trimD b) ↔ _
      simp only [BodyStmts, bodyScope_trim, callTyped_trim, closure_trim _ _ hl.1, ih _ hl.2]
      simp only [ClassEnv.trim, classNames_trim]
    | retResult =>
      show BodyStmts E.trim m.trim vs (.retResult :: trimD b) ↔ _
      simp only [RetLastD] at hl
      subst hl
      exact Iff.rfl
    | letMethodId v =>
      show BodyStmts E.trim m.trim vs (.letMethodId v :: trimD b) ↔ _
      simp only [BodyStmts, bodyScope_trim, member_trim (E := E) (m := .lastId v) rfl, ih _ hl]
    | rotate v =>
      show BodyStmts E.trim m.trim vs (.rotate v :: trimD b) ↔ _
      simp only [BodyStmts, bodyScope_trim, member_trim (E := E) (m := .lastId v) rfl, lib_trim, ih _ hl]
    | letCompleter ty =>
      show BodyStmts E.trim m.trim vs (.letCompleter ty :: trimD b) ↔ _
      simp only [BodyStmts, bodyScope_trim, lib_trim, result_trim, ih _ hl]
    | store v =>
      show BodyStmts E.trim m.trim vs (.store v :: trimD b) ↔ _
      simp only [BodyStmts, bodyScope_trim, fun t => member_trim (E := E) (m := .completers v t) rfl, ih _ hl]
    | retFuture =>
      show BodyStmts E.trim m.trim vs (.retFuture :: trimD b) ↔ _
      simp only [RetLastD] at hl
      subst hl
      exact Iff.rfl
    | connect v a u body =>
      show BodyStmts E.trim m.trim vs (.connect v a u (trimR body) :: trimD b) ↔ _
      simp only [BodyStmts, bodyScope_trim, callTyped_trim, closure_trim _ _ hl.1, member_trim (E := E) (m := .task v) rfl, ih _ hl.2]
    | blank =>
      show BodyStmts E.trim m.trim vs (trimD b) ↔ _
      simp only [BodyStmts]; exact ih _ hl

theorem method_trim {m : DMethod} (h : RetLastD m.body) : DMethodTyped E.trim m.trim ↔ DMethodTyped E m := by
  have e1 := bodyLocals_trim m.body
  have e2 := body_trim (E := E) m m.body [] h
  constructor
  · rintro ⟨h1, h2, h3, h4⟩
    refine ⟨by simpa only [result_trim, lib_trim, DMethod.trim] using h1,
      by simpa only [ClassEnv.trim, classNames_trim, DMethod.trim] using h2, ?_, e2.1 h4⟩
    rw [← e1]; exact h3
  · rintro ⟨h1, h2, h3, h4⟩
    refine ⟨by simpa only [result_trim, lib_trim, DMethod.trim] using h1,
      by simpa only [ClassEnv.trim, classNames_trim, DMethod.trim] using h2, ?_, e2.2 h4⟩
    show (bodyLocals (trimD m.body)).Nodup
    rw [e1]; exact h3

theorem memberTyped_trim (m : Member) : MemberTyped E.trim m ↔ MemberTyped E m := by
  cases m <;> simp only [MemberTyped, lib_trim, result_trim]

theorem overrides_trim (n : String) : Overrides E.trim n ↔ Overrides E n := by
  have : (∀ m ∈ E.trim.c.methods, m.name = n → m.future = false ∧ m.params = [] ∧ m.ret = .named "String" ∧ "String" ∉ E.trim.F.names) ↔
      ∀ m ∈ E.c.methods, m.name = n → m.future = false ∧ m.params = [] ∧ m.ret = .named "String" ∧ "String" ∉ E.F.names := by
    show (∀ m ∈ E.c.methods.map DMethod.trim, _) ↔ _
    rw [List.forall_mem_map]
    exact Iff.rfl
  unfold Overrides
  rw [this]
  exact Iff.rfl

/-- A class is accepted with and without its empty lines. -/
theorem clientTyped_trim (h : ∀ m ∈ E.c.methods, RetLastD m.body) : ClientTyped E.trim ↔ ClientTyped E := by
  have hm : (∀ m ∈ E.trim.c.methods, DMethodTyped E.trim m) ↔ ∀ m ∈ E.c.methods, DMethodTyped E m := by
    show (∀ m ∈ E.c.methods.map DMethod.trim, _) ↔ _
    rw [List.forall_mem_map]
    exact forall_congr' fun m => forall_congr' fun hm => method_trim (h m hm)
  have hc : (∀ n ∈ E.trim.c.connects, ∃ m ∈ E.trim.c.methods, m.name = n ∧ m.params = []) ↔
      ∀ n ∈ E.c.connects, ∃ m ∈ E.c.methods, m.name = n ∧ m.params = [] := by
    show (∀ n ∈ E.c.connects, ∃ m ∈ E.c.methods.map DMethod.trim, _) ↔ _
    refine forall_congr' fun n => forall_congr' fun _ => ?_
    constructor
    · rintro ⟨m, hm, h⟩
      obtain ⟨q, hq, rfl⟩ := List.mem_map.1 hm
      exact ⟨q, hq, h⟩
    · rintro ⟨m, hm, h⟩
      exact ⟨m.trim, List.mem_map.2 ⟨m, hm, rfl⟩, h⟩
  have hb : (∀ m ∈ E.trim.c.members, MemberTyped E.trim m) ↔ ∀ m ∈ E.c.members, MemberTyped E m := by
    simp only [memberTyped_trim]
    constructor
    · intro h m hm
      cases hs : m.solid with
      | true => exact h m ((member_trim hs).2 hm)
      | false => cases m <;> first | trivial | simp [Member.solid] at hs
    · intro h m hm
      exact h m ((List.mem_filter.1 hm).1)
  have hg : (∀ g ∈ E.trim.c.getters, E.trim.Lib "Stream" ∧ E.trim.Result g.ty ∧ Member.controller g.controller g.ty ∈ E.trim.c.members) ↔
      ∀ g ∈ E.c.getters, E.Lib "Stream" ∧ E.Result g.ty ∧ .controller g.controller g.ty ∈ E.c.members := by
    simp only [lib_trim, result_trim, fun v t => member_trim (E := E) (m := .controller v t) rfl]
    exact Iff.rfl
  have hd : (∀ d ∈ E.trim.c.disconnect, match d with
        | .disconnect v => Member.task v ∈ E.trim.c.members
        | .close v => ∃ t, Member.controller v t ∈ E.trim.c.members) ↔
      ∀ d ∈ E.c.disconnect, match d with
        | .disconnect v => .task v ∈ E.c.members
        | .close v => ∃ t, .controller v t ∈ E.c.members := by
    refine forall_congr' fun d => forall_congr' fun _ => ?_
    cases d with
    | disconnect v => exact member_trim rfl
    | close v => exact exists_congr fun t => member_trim rfl
  have hn : (∀ n ∈ classNames E.trim.c, DartName n ∧ n ≠ E.trim.c.name ∧ Overrides E.trim n) ↔
      ∀ n ∈ classNames E.c, DartName n ∧ n ≠ E.c.name ∧ Overrides E n := by
    show (∀ n ∈ classNames E.c.trim, _) ↔ _
    rw [classNames_trim]
    simp only [overrides_trim]
    exact Iff.rfl
  have ho : (classNames E.trim.c).Nodup ↔ (classNames E.c).Nodup := by
    show (classNames E.c.trim).Nodup ↔ _
    rw [classNames_trim]
  constructor
  · rintro ⟨h1, h2, h3, h4, h5, h6, h7, h8, h9, h10⟩
    exact ⟨h1, h2, ho.1 h3, hn.1 h4, (lib_trim _).1 h5, hc.1 h6, hb.1 h7, hg.1 h8, hd.1 h9, hm.1 h10⟩
  · rintro ⟨h1, h2, h3, h4, h5, h6, h7, h8, h9, h10⟩
    exact ⟨h1, h2, ho.2 h3, hn.2 h4, (lib_trim _).2 h5, hc.2 h6, hb.2 h7, hg.2 h8, hd.2 h9, hm.2 h10⟩

theorem retLast_gen (x : Ext) (f : FnNode) : ∀ m ∈ genDMethods x f, RetLastD m.body := by
  intro m hm
  unfold genDMethods at hm
  split at hm
  · simp only [List.mem_singleton] at hm
    subst hm
    simp only [genReadConnect, genReaderHead, genAdd, RetLastD]
    cases f.returnTypeId <;> simp [RetLast]
  · split at hm
    · simp only [List.mem_cons, List.not_mem_nil, or_false] at hm
      rcases hm with rfl | rfl
      · simp only [genAsyncConnect, genReaderHead, genComplete, RetLastD]
        cases f.returnTypeId <;> simp [RetLast]
      · simp [genAsync, RetLastD]
    · simp only [List.mem_singleton] at hm
      subst hm
      simp only [genSync, genSyncResult]
      cases f.returnTypeId <;> simp [RetLastD, RetLast]

end TPB.Spec.DartRules
