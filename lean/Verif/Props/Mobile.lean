/-
C17: what can make a generator fail on an accepted schema.  C43: Kotlin and Swift types.  C45: the
indentation of printed Kotlin and Swift declaration trees.
-/
import Verif.Proofs.MobileOk
import Verif.Proofs.DartRpcFacts
import Verif.Proofs.RustRpcFacts
import Verif.Props.Output
import Verif.Model.ToCase
namespace TPB.Props
open Spec

/-! ## C17: failures -/

theorem importLines_some_iff (a b : String) (vs : List ConstValue) :
    importLines a b vs ≠ none ↔ ∀ v ∈ vs, ∃ s, v.literal = .str s := by
  induction vs with
  | nil => simp [importLines]
  | cons v vs ih =>
    obtain ⟨l, t⟩ := v
    simp only [List.mem_cons, forall_eq_or_imp, ← ih]
    have e : importLines a b (⟨l, t⟩ :: vs) = match l, importLines a b vs with
        | .str s, some rest => some (a ++ s ++ b ++ "\n" ++ rest)
        | _, _ => none := rfl
    rw [e]
    cases l <;> cases importLines a b vs <;> simp

theorem stringEntries_iff (S : List ASTNode) (g n : String) :
    StringEntries S g n ↔ ∀ v ∈ givenValues S g n, ∃ s, v.literal = .str s := by
  rw [← findDirectiveGroupValues_eq, C18_group_values]
  constructor
  · intro h v hv
    obtain ⟨e, he, rfl⟩ := List.mem_map.1 hv
    obtain ⟨he, hc⟩ := List.mem_filter.1 he
    obtain ⟨d, hd, he⟩ := List.mem_flatMap.1 he
    simp only [Bool.and_eq_true, beq_iff_eq] at hc
    cases d with
    | directive d =>
      cases d with
      | value _ _ => simp at he
      | group g' ps =>
        obtain ⟨p, hp, rfl⟩ := List.mem_map.1 he
        obtain ⟨rfl, rfl⟩ := hc
        exact h ps hd p hp rfl
    | _ => simp at he
  · intro h ps hd p hp hn
    refine h p.value (List.mem_map.2 ⟨(g, p), List.mem_filter.2 ⟨List.mem_flatMap.2 ⟨_, hd, ?_⟩, by simp [hn]⟩, rfl⟩)
    exact List.mem_map.2 ⟨p, hp, rfl⟩

theorem hasString_iff (S : List ASTNode) (n : String) :
    HasString S n ↔ ∃ s t, findDirectiveValue S n = some ⟨.str s, t⟩ := by
  rw [C18_value]
  unfold HasString
  change (∃ s t, (valueDirectives S).find? (fun p => p.1 == n) = _) ↔ _
  cases hf : (valueDirectives S).find? (fun p => p.1 == n) with
  | none => simp
  | some p =>
    have := List.find?_some hf
    simp only [beq_iff_eq] at this
    obtain ⟨a, b⟩ := p
    simp only at this
    subst this
    simp

theorem dart_string_iff (S : List ASTNode) (n : String) : Ok (DartGen.stringDirective S n) ↔ HasString S n := by
  rw [hasString_iff]
  unfold DartGen.stringDirective Ok
  cases findDirectiveValue S n with
  | none => simp
  | some v => obtain ⟨l, t⟩ := v; cases l <;> simp

theorem scopeOf_iff (S : List ASTNode) : (∃ s, Rust.scopeOf S = some s) ↔ HasString S "id" := by
  rw [hasString_iff]
  unfold Rust.scopeOf
  cases findDirectiveValue S "id" with
  | none => simp
  | some v => obtain ⟨l, t⟩ := v; cases l <;> simp

theorem not_error_iff {α : Type} (m : Except Panic α) : (¬ ∃ e, m = .error e) ↔ ∃ a, m = .ok a := by
  cases m <;> simp

/-- **C17, Rust.** For every accepted schema and every choice of sections, generation succeeds exactly
when the user's `#[rust(use = ..)]` directives are strings and, if there are methods in an enabled rpc
section, the schema has a string `id`.  So types are never a cause of failure. -/
theorem C17_rust (x : Ext) (ts : List Token) (S : List ASTNode) (h : parse ts = .ok S) (m b r : Bool) :
    (∃ s, RustGen.generate x S m b r = .ok s) ↔
      StringEntries S "rust" "use" ∧ (r = true → methodsOf S ≠ [] → HasString S "id") := by
  have ha : Accepted S := ⟨ts, h⟩
  rw [← not_error_iff, C38_rust_failures, stringEntries_iff, ← importLines_some_iff "use " ";"]
  have hm : ∃ M, RustGen.models S = .ok M := ⟨_, (emitted_models S ha).1⟩
  obtain ⟨M, hm⟩ := hm
  have hr : (∃ e, RustGen.rpc S = .error e) ↔ methodsOf S ≠ [] ∧ ¬ HasString S "id" := by
    by_cases hM : methodsOf S = []
    · have : RustGen.rpc S = .ok "" := by
        unfold RustGen.rpc
        have : RustGen.hasRpcMethods S = false := by
          rw [← findFnNodes_eq] at hM
          clear h ha hm
          induction S with
          | nil => rfl
          | cons d S ih => cases d <;> simp [RustGen.hasRpcMethods, findFnNodes] at * <;> exact ih hM
        simp [this]
      simp [this, hM]
    · rw [← scopeOf_iff]
      constructor
      · rintro ⟨e, he⟩
        refine ⟨hM, ?_⟩
        rintro ⟨s, hs⟩
        rw [Rust.rpc_render S (by rwa [findFnNodes_eq]) s hs] at he
        cases he
      · rintro ⟨_, hs⟩
        cases hrpc : RustGen.rpc S with
        | error e => exact ⟨e, rfl⟩
        | ok out => exact absurd (Rust.rpc_scope hrpc hM) hs
  rw [hr, hm]
  simp only [reduceCtorEq, exists_const, and_false, false_or, not_or, ne_eq]
  refine and_congr_right (fun _ => ?_)
  constructor
  · intro hn hr' hM
    exact Classical.byContradiction fun hc => hn ⟨hr', hM, hc⟩
  · rintro hn ⟨h1, h2, h3⟩
    exact h3 (hn h1 h2)

/-- **C17, Dart.** The same for Dart; the rpc section also needs a string `namespace`. -/
theorem C17_dart (x : Ext) (ts : List Token) (S : List ASTNode) (h : parse ts = .ok S) (m b r : Bool) :
    (∃ s, DartGen.generate x S m b r = .ok s) ↔
      StringEntries S "dart" "import" ∧
        (r = true → methodsOf S ≠ [] → HasString S "namespace" ∧ HasString S "id") := by
  have ha : Accepted S := ⟨ts, h⟩
  rw [← not_error_iff, C38_dart_failures, stringEntries_iff, ← importLines_some_iff "import '" "';"]
  obtain ⟨M, hm⟩ : ∃ M, DartGen.models x S = .ok M := ⟨_, (Dart.prints_genProg ha).1⟩
  obtain ⟨B, hb⟩ : ∃ B, DartGen.buffers x S = .ok B := ⟨_, (Dart.prints_genProg ha).2⟩
  have hr : (∃ e, DartGen.rpcMethods x S = .error e) ↔
      methodsOf S ≠ [] ∧ ¬ (HasString S "namespace" ∧ HasString S "id") := by
    by_cases hM : methodsOf S = []
    · have : DartGen.rpcMethods x S = .ok "" := by
        unfold DartGen.rpcMethods
        rw [findFnNodes_eq, hM]
        rfl
      simp [this, hM]
    · rw [← dart_string_iff, ← dart_string_iff]
      have hne : findFnNodes S ≠ [] := by rwa [findFnNodes_eq]
      constructor
      · rintro ⟨e, he⟩
        refine ⟨hM, ?_⟩
        rintro ⟨⟨ns, hn⟩, ⟨scope, hs⟩⟩
        rw [Dart.rpc_render S (fun f hf => Dart.sizedFn_of_wf ha.wf (by rwa [findFnNodes_eq] at hf)) hne
          (by rw [findFnNodes_eq]; exact Rust.positions_nodup ha.wf) ns scope hn hs] at he
        cases he
      · rintro ⟨_, hs⟩
        cases hrpc : DartGen.rpcMethods x S with
        | error e => exact ⟨e, rfl⟩
        | ok out =>
          exfalso
          apply hs
          have hl := List.getLast?_eq_some_getLast hne
          unfold DartGen.rpcMethods at hrpc
          simp only [hl] at hrpc
          cases hn : DartGen.stringDirective S "namespace" with
          | error e => simp [hn] at hrpc
          | ok ns =>
            cases hi : DartGen.stringDirective S "id" with
            | error e => simp [hn, hi] at hrpc
            | ok scope => exact ⟨⟨_, rfl⟩, ⟨_, rfl⟩⟩
  rw [hr, hm, hb]
  simp only [reduceCtorEq, exists_const, and_false, false_or, not_or, ne_eq]
  refine and_congr_right (fun _ => ?_)
  constructor
  · intro hn hr' hM
    exact Classical.byContradiction fun hc => hn ⟨hr', hM, hc⟩
  · rintro hn ⟨h1, h2, h3⟩
    exact h3 (hn h1 h2)

theorem accepted_decls {ts : List Token} {S : List ASTNode} (h : parse ts = .ok S) : ∀ d ∈ S, ∃ k, WFDecl k d :=
  fun d hd => wfSchema_mem S 0 (C09_results_wellformed ts S h) d hd

/-- **C17, Kotlin.** The Kotlin models of an accepted schema can always be generated, whatever its types. -/
theorem C17_kotlin_models (x : ExtF) (ts : List Token) (S : List ASTNode) (h : parse ts = .ok S) :
    ∃ s, KotlinGen.models x S = .ok s :=
  KotlinGen.ok_models (accepted_decls h)

/-- **C17, Swift.** -/
theorem C17_swift_models (x : ExtF) (ts : List Token) (S : List ASTNode) (h : parse ts = .ok S) :
    ∃ s, SwiftGen.models x S = .ok s :=
  SwiftGen.ok_models (accepted_decls h)

/-- **C17, Kotlin constants.** The constants of an accepted schema can be generated exactly when every
literal fits the type it is given; the width of the type is never a cause of failure. -/
theorem C17_kotlin_consts (x : ExtF) (ts : List Token) (S : List ASTNode) (h : parse ts = .ok S) :
    (∃ s, KotlinGen.consts x S = .ok s) ↔ ∀ c ∈ schemaConsts S, LiteralFits c.type c.value :=
  KotlinGen.ok_consts_iff (accepted_decls h)

/-- **C17, Swift constants.** -/
theorem C17_swift_consts (x : ExtF) (ts : List Token) (S : List ASTNode) (h : parse ts = .ok S) :
    (∃ s, SwiftGen.consts x S = .ok s) ↔ ∀ c ∈ schemaConsts S, LiteralFits c.type c.value :=
  SwiftGen.ok_consts_iff (accepted_decls h)

/-- `struct S { a: u8, b: Vec<Vec<f64>> } enum E { A, B(i64) } const C { n: u32 = 1; const D { f: f64 = 1.5; } }` -/
def mobileTokens : List Token :=
  [.kwStruct, .id "S", .sym '{', .id "a", .sym ':', .id "u8", .sym ',', .id "b", .sym ':', .id "Vec", .sym '<',
   .id "Vec", .sym '<', .id "f64", .sym '>', .sym '>', .sym '}',
   .kwEnum, .id "E", .sym '{', .id "A", .sym ',', .id "B", .sym '(', .id "i64", .sym ')', .sym '}',
   .kwConst, .id "C", .sym '{', .id "n", .sym ':', .id "u32", .sym '=', .lit (.int 1), .sym ';',
   .kwConst, .id "D", .sym '{', .id "f", .sym ':', .id "f64", .sym '=', .lit (.num "1.5"), .sym ';', .sym '}', .sym '}',
   .kwFn, .id "go", .sym '(', .sym ')', .sym ';', .eof]

/-- The hypotheses are met by a schema with all kinds of declarations; it has a method but no `id`, so
that rpc sections cannot be generated, and everything else can. -/
example : ∃ S, parse mobileTokens = .ok S ∧ methodsOf S ≠ [] ∧ StringEntries S "rust" "use" ∧ ¬ HasString S "id" ∧
    schemaConsts S ≠ [] ∧ ∀ c ∈ schemaConsts S, LiteralFits c.type c.value := by
  refine ⟨[.struct ⟨"S", [⟨0, "a", .integer "u8" 1 false⟩, ⟨1, "b", .generic "Vec" [.generic "Vec" [.number "f64" 8]]⟩], true, true⟩,
    .enum ⟨"E", [.empty 0 "A", .tuple 1 "B" [⟨0, .integer "i64" 8 true⟩]]⟩,
    .const ⟨"C", [.value "n" (.integer "u32" 4 false) (constOf (.int 1)),
      .node "D" [.value "f" (.number "f64" 8) (constOf (.num "1.5"))]]⟩,
    .fn ⟨"go", 0, [], none, false, false⟩], ?_, ?_, ?_, ?_, ?_, ?_⟩
  · rfl
  · simp [methodsOf]
  · intro ps h; simp at h
  · rintro ⟨s, t, h⟩; simp at h
  · simp [schemaConsts, declConsts, itemsConsts, itemConsts]
  · simp [schemaConsts, declConsts, itemsConsts, itemConsts, constOf, LiteralFits]

/-- A literal that does not fit its type makes the Kotlin and Swift constants fail, although the schema
is accepted: `const C { f: f64 = 1; }`. -/
example : ∃ (ts : List Token) (S : List ASTNode), parse ts = .ok S ∧
    ∀ x : ExtF, (¬ ∃ s, KotlinGen.consts x S = .ok s) ∧ ¬ ∃ s, SwiftGen.consts x S = .ok s := by
  refine ⟨[.kwConst, .id "C", .sym '{', .id "f", .sym ':', .id "f64", .sym '=', .lit (.int 1), .sym ';', .sym '}', .eof],
    [.const ⟨"C", [.value "f" (.number "f64" 8) (constOf (.int 1))]⟩], rfl, fun x => ?_⟩
  have hp : parse [.kwConst, .id "C", .sym '{', .id "f", .sym ':', .id "f64", .sym '=', .lit (.int 1), .sym ';', .sym '}', .eof]
    = .ok [.const ⟨"C", [.value "f" (.number "f64" 8) (constOf (.int 1))]⟩] := rfl
  rw [C17_kotlin_consts x _ _ hp, C17_swift_consts x _ _ hp]
  simp [schemaConsts, declConsts, itemsConsts, itemConsts, constOf, LiteralFits]

/-! ## C43: types -/

theorem writtenType_inj (names : List (ValueType × String)) (p : Char) (pre post : String)
    (hn : ∀ a ∈ names, ∀ b ∈ names, a.2 = b.2 → a = b) (hp : ∀ a ∈ names, p ∉ a.2.toList) (hpre : p ∈ pre.toList)
    (v v' : ValueType) (s : String) (h : writtenType names pre post v = some s)
    (h' : writtenType names pre post v' = some s) : v = v' := by
  have scalar : ∀ v s, writtenType names pre post v = some s →
      (v, s) ∈ names ∨ ∃ w u, v = .list w ∧ writtenType names pre post w = some u ∧ s = pre ++ u ++ post := by
    intro v s h
    have look : names.lookup v = some s → (v, s) ∈ names := by
      intro h
      obtain ⟨l1, l2, e, -⟩ := List.lookup_eq_some_iff.1 h
      rw [e]; simp
    cases v with
    | list w =>
      simp only [writtenType, Option.map_eq_some_iff] at h
      obtain ⟨u, h1, h2⟩ := h
      exact .inr ⟨w, u, rfl, h1, h2.symm⟩
    | _ => exact .inl (look h)
  have clash : ∀ v u, (v, pre ++ u ++ post) ∈ names → False := by
    intro v u h
    exact hp _ h (by simp [String.toList_append, hpre])
  induction v generalizing v' s with
  | list w ih =>
    rcases scalar _ s h with h1 | ⟨w1, u1, e1, h1, rfl⟩
    · rcases scalar _ s h' with h2 | ⟨w2, u2, e2, h2, rfl⟩
      · have := hn _ h1 _ h2 rfl
        injection this
      · exact (clash _ _ h1).elim
    · cases e1
      rcases scalar _ _ h' with h2 | ⟨w2, u2, rfl, h2, e⟩
      · exact (clash _ _ h2).elim
      · have : u1 = u2 := by
          have := congrArg String.toList e
          simp only [String.toList_append, List.append_assoc, List.append_cancel_left_eq,
            List.append_cancel_right_eq] at this
          exact String.toList_inj.1 this
        subst this
        rw [ih w2 u1 h1 h2]
  | _ =>
    rcases scalar _ s h with h1 | ⟨w1, u1, e1, _, _⟩
    · rcases scalar _ s h' with h2 | ⟨w2, u2, e2, h2, rfl⟩
      · have := hn _ h1 _ h2 rfl
        injection this
      · exact (clash _ _ h1).elim
    · cases e1

theorem holds_inj {t t' : TypeId} {v : ValueType} (h : Holds t v) (h' : Holds t' v) : t = t' := by
  have hb : ∀ n v, (n, v) ∈ builtinMeanings → ∀ w, v ≠ .list w := by
    intro n v hv w e
    subst e
    simp [builtinMeanings] at hv
  induction h generalizing t' with
  | builtin n v hv =>
    cases h' with
    | builtin n' _ hv' =>
      have key : ∀ p ∈ builtinMeanings, ∀ q ∈ builtinMeanings, p.2 = q.2 → p.1 = q.1 := by decide
      have : n = n' := key _ hv _ hv' rfl
      rw [this]
    | list t v => exact absurd rfl (hb _ _ hv _)
  | list t v _ ih =>
    cases h' with
    | builtin n' _ hv' => exact absurd rfl (hb _ _ hv' _)
    | list t' _ h' => rw [ih h']

/-- **C43, Kotlin.** A built-in type is emitted as the Kotlin type with the same kind, width and sign,
and a list as a Kotlin list of the emitted element type, to any depth. -/
theorem C43_kotlin (t : TypeId) (v : ValueType) (h : Holds t v) :
    ∃ s, kotlinType v = some s ∧ KotlinGen.typeId t = .ok s := by
  induction h with
  | builtin n v hv =>
    simp only [builtinMeanings, List.mem_cons, Prod.mk.injEq, List.not_mem_nil, or_false] at hv
    rcases hv with ⟨rfl, rfl⟩ | ⟨rfl, rfl⟩ | ⟨rfl, rfl⟩ | ⟨rfl, rfl⟩ | ⟨rfl, rfl⟩ | ⟨rfl, rfl⟩ | ⟨rfl, rfl⟩ | ⟨rfl, rfl⟩ |
      ⟨rfl, rfl⟩ | ⟨rfl, rfl⟩ <;> exact ⟨_, rfl, rfl⟩
  | list t v _ ih =>
    obtain ⟨s, h1, h2⟩ := ih
    refine ⟨"List<" ++ s ++ ">", ?_, by simp [KotlinGen.typeId, KotlinGen.typeIds, h2, joinStr]⟩
    unfold kotlinType at *
    simp [writtenType, h1]

/-- **C43, Kotlin.** Two different such types are never emitted as the same Kotlin type. -/
theorem C43_kotlin_distinct (t t' : TypeId) (v v' : ValueType) (h : Holds t v) (h' : Holds t' v')
    (e : KotlinGen.typeId t = KotlinGen.typeId t') : t = t' := by
  obtain ⟨s, h1, h2⟩ := C43_kotlin t v h
  obtain ⟨s', h3, h4⟩ := C43_kotlin t' v' h'
  rw [h2, h4] at e
  injection e with e
  subst e
  have := writtenType_inj kotlinNames '<' "List<" ">" (by decide) (by decide) (by decide) v v' s h1 h3
  subst this
  exact holds_inj h h'

/-- **C43, Swift, part.** As for Kotlin, for types without `char`.  Missing: `char`, which is emitted as
`char`, and Swift has no such type (`C43_swift_char`). -/
theorem C43_swift_partial (t : TypeId) (v : ValueType) (h : Holds t v) (hc : v.NoChar) :
    ∃ s, swiftType v = some s ∧ SwiftGen.typeId t = .ok s := by
  induction h with
  | builtin n v hv =>
    simp only [builtinMeanings, List.mem_cons, Prod.mk.injEq, List.not_mem_nil, or_false] at hv
    rcases hv with ⟨rfl, rfl⟩ | ⟨rfl, rfl⟩ | ⟨rfl, rfl⟩ | ⟨rfl, rfl⟩ | ⟨rfl, rfl⟩ | ⟨rfl, rfl⟩ | ⟨rfl, rfl⟩ | ⟨rfl, rfl⟩ |
      ⟨rfl, rfl⟩ | ⟨rfl, rfl⟩ <;> first | exact ⟨_, rfl, rfl⟩ | exact absurd hc id
  | list t v _ ih =>
    obtain ⟨s, h1, h2⟩ := ih hc
    refine ⟨"[" ++ s ++ "]", ?_, by simp [SwiftGen.typeId, SwiftGen.typeIds, h2, joinStr]⟩
    unfold swiftType at *
    simp [writtenType, h1]

/-- **C43, Swift, `char`.** The type `char` is emitted as `char`, which is not the name of any Swift type
with built-in values: the property does not hold for it. -/
theorem C43_swift_char : Holds (.char "char") .char ∧ SwiftGen.typeId (.char "char") = .ok "char" ∧
    ∀ v, swiftType v ≠ some "char" := by
  refine ⟨.builtin "char" .char (by decide), by simp [SwiftGen.typeId], fun v hv => ?_⟩
  have look : ∀ v, swiftNames.lookup v = some "char" → False := by
    intro v h
    obtain ⟨l1, l2, e, -⟩ := List.lookup_eq_some_iff.1 h
    have : (v, "char") ∈ swiftNames := by rw [e]; simp
    have key : ∀ p ∈ swiftNames, p.2 ≠ "char" := by decide
    exact key _ this rfl
  cases v with
  | list w =>
    simp only [swiftType, writtenType, Option.map_eq_some_iff] at hv
    obtain ⟨u, _, e⟩ := hv
    have := congrArg String.toList e
    simp [String.toList_append] at this
  | _ => simp only [swiftType, writtenType] at hv; exact look _ hv

/-- **C43, Swift.** Two different built-in types or lists of such, with or without `char`, are never
emitted as the same text. -/
theorem C43_swift_distinct (t t' : TypeId) (v v' : ValueType) (h : Holds t v) (h' : Holds t' v')
    (e : SwiftGen.typeId t = SwiftGen.typeId t') : t = t' := by
  have key : ∀ t v, Holds t v →
      ∃ s, writtenType ((.char, "char") :: swiftNames) "[" "]" v = some s ∧ SwiftGen.typeId t = .ok s := by
    intro t v h
    induction h with
    | builtin n v hv =>
      simp only [builtinMeanings, List.mem_cons, Prod.mk.injEq, List.not_mem_nil, or_false] at hv
      rcases hv with ⟨rfl, rfl⟩ | ⟨rfl, rfl⟩ | ⟨rfl, rfl⟩ | ⟨rfl, rfl⟩ | ⟨rfl, rfl⟩ | ⟨rfl, rfl⟩ | ⟨rfl, rfl⟩ | ⟨rfl, rfl⟩ |
        ⟨rfl, rfl⟩ | ⟨rfl, rfl⟩ <;> exact ⟨_, rfl, rfl⟩
    | list t v _ ih =>
      obtain ⟨s, h1, h2⟩ := ih
      exact ⟨"[" ++ s ++ "]", by simp [writtenType, h1], by simp [SwiftGen.typeId, SwiftGen.typeIds, h2, joinStr]⟩
  obtain ⟨s, h1, h2⟩ := key t v h
  obtain ⟨s', h3, h4⟩ := key t' v' h'
  rw [h2, h4] at e
  injection e with e
  subst e
  have := writtenType_inj _ '[' "[" "]" (by decide) (by decide) (by decide) v v' s h1 h3
  subst this
  exact holds_inj h h'

/-- `Vec<Vec<u8>>` is such a type. -/
example : Holds (.generic "Vec" [.generic "Vec" [.integer "u8" 1 false]]) (.list (.list (.int 8 false))) ∧
    (ValueType.list (.list (.int 8 false))).NoChar ∧
    KotlinGen.typeId (.generic "Vec" [.generic "Vec" [.integer "u8" 1 false]]) = .ok "List<List<UByte>>" ∧
    SwiftGen.typeId (.generic "Vec" [.generic "Vec" [.integer "u8" 1 false]]) = .ok "[[UInt8]]" :=
  ⟨.list _ _ (.list _ _ (.builtin "u8" _ (by decide))), trivial, rfl, rfl⟩

/-! ## C45: indentation -/

/-- **C45, Kotlin.** Printing any declaration tree, with any writer: if printing ends, the indentation is
the one it began with; and printing does not fail by closing a level that is not open. -/
theorem C45_kotlin (x : ExtF) (t : KotlinGen.KIR) (w : Writer) :
    (∀ w', KotlinGen.writeToken x w t = .ok w' → w'.constTabs = w.constTabs ∧ w'.tab = w.tab) ∧
      KotlinGen.writeToken x w t ≠ .error (.gen "attempt to subtract with overflow") := by
  have h := KotlinGen.keeps_token x t w
  constructor
  · intro w' e; rw [e] at h; exact h
  · intro e; rw [e] at h; exact h rfl

/-- **C45, Swift.** -/
theorem C45_swift (x : ExtF) (t : SwiftGen.SIR) (w : Writer) :
    (∀ w', SwiftGen.writeToken x w t = .ok w' → w'.constTabs = w.constTabs ∧ w'.tab = w.tab) ∧
      SwiftGen.writeToken x w t ≠ .error (.gen "attempt to subtract with overflow") := by
  have h := SwiftGen.keeps_token x t w
  constructor
  · intro w' e; rw [e] at h; exact h
  · intro e; rw [e] at h; exact h rfl

/-- **C45.** The same for lists of declarations, as `stringify_tokens` prints them. -/
theorem C45_lists (x : ExtF) (ks : List KotlinGen.KIR) (ss : List SwiftGen.SIR) (w : Writer) :
    ((∀ w', KotlinGen.writeTokens x none w ks = .ok w' → w'.constTabs = w.constTabs ∧ w'.tab = w.tab) ∧
      KotlinGen.writeTokens x none w ks ≠ .error (.gen "attempt to subtract with overflow")) ∧
    ((∀ w', SwiftGen.writeTokens x none w ss = .ok w' → w'.constTabs = w.constTabs ∧ w'.tab = w.tab) ∧
      SwiftGen.writeTokens x none w ss ≠ .error (.gen "attempt to subtract with overflow")) := by
  have h := KotlinGen.keeps_tokens x ks none w
  have h' := SwiftGen.keeps_tokens x ss none w
  refine ⟨⟨fun w' e => ?_, fun e => ?_⟩, ⟨fun w' e => ?_, fun e => ?_⟩⟩
  · rw [e] at h; exact h
  · rw [e] at h; exact h rfl
  · rw [e] at h'; exact h'
  · rw [e] at h'; exact h' rfl

/-- A tree of three levels is printed, from a writer at level two. -/
example : (KotlinGen.writeToken testExtF { Writer.new 2 with constTabs := 2 }
    (.object "a" [.object "b" [.decl (.id "c") none] []] [])).toOption.map (fun w => (w.constTabs, w.res)) =
    some (2, "    object A {\n      object B {\n        c\n      }\n    }\n") := by
  decide +kernel

end TPB.Props
