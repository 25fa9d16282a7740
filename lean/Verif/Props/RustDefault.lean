/-
Property theorems about the emitted Rust default values: C46.

`EmitsItems S items` says that the models section generated for `S` is the text of the type items
`items`; `HasDefault D items t v` runs `t::default()` in that program; `DefaultOf` is the
specification (`Spec/Default.lean`).
-/
import Verif.Proofs.RustDefault
import Verif.Props.RustCodec
namespace TPB.Props
open Spec Rust

/-- The models section of the generated Rust file is the text of `items`. -/
def EmitsItems (S : List ASTNode) (items : List TypeItem) : Prop :=
  RustGen.models S = .ok (linesText 4 (joinBlocks (items.map TypeItem.render)))

theorem accepted_enums {S : List ASTNode} (h : Accepted S) : ∀ n, .enum n ∈ S → n.items ≠ [] := by
  intro n hn
  obtain ⟨j, hj⟩ := wfSchema_mem S 0 h.wf _ hn
  exact hj.1

theorem defMany_single {rec : Ty → Res Val} {t : Ty} {v : Val} :
    defMany rec [t] = .ok [v] ↔ rec t = .ok v := by
  simp only [defMany, bind, Except.bind]
  cases rec t <;> simp

theorem hasDefault_iff {D : Defaults} {S : List ASTNode} (hA : Accepted S) (hN : WellNamed S)
    (hC : NoCharFields S) {t : TypeId} (ht : WFType t) {v : Val} :
    HasDefault D (genItems S) t v ↔ DefaultOf D S [t] [v] := by
  constructor
  · rintro ⟨N, h⟩
    exact eval_default hN (typesOk_of_wf hA.wf) hC (accepted_enums hA) N [t] [v] (by simpa using ht)
      (defMany_single.2 (h N (Nat.le_refl N)))
  · intro h
    obtain ⟨N, h⟩ := default_eval hN (typesOk_of_wf hA.wf) hC (accepted_enums hA) h (by simpa using ht)
    exact ⟨N, fun k hk => defMany_single.1 (h k hk)⟩

/-- C46.  In the generated Rust program the default of every type is exactly the specified one:
first variant with default payload for enums, default of every field for structs, zero for built-in
types.  Partial: `char` fields are excluded (see `C46_char_field`), and the names of the schema must not
clash. -/
theorem C46_default_partial (D : Defaults) (S : List ASTNode) (hA : Accepted S) (hN : WellNamed S)
    (hC : NoCharFields S) :
    ∃ items, EmitsItems S items ∧
      ∀ t, WFType t → ∀ v, HasDefault D items t v ↔ DefaultOf D S [t] [v] :=
  ⟨genItems S, (emitted_models S hA).1, fun _ ht _ => hasDefault_iff hA hN hC ht⟩

/-- C46 for enums: the default is the variant written first, whatever the numbers of the variants are. -/
theorem C46_enum_first_variant_partial (D : Defaults) (S : List ASTNode) (hA : Accepted S) (hN : WellNamed S)
    (hC : NoCharFields S) :
    ∃ items, EmitsItems S items ∧
      ∀ n, .enum n ∈ S → ∀ v, HasDefault D items (.other n.id) v →
        ∃ first rest pl, n.items = first :: rest ∧ v = .enum n.id first.id pl ∧
          pl.map (·.1) = (payload first).map (·.1) := by
  refine ⟨genItems S, (emitted_models S hA).1, fun n hn v h => ?_⟩
  obtain ⟨i, hi⟩ : ∃ i, n.items.head? = some i := by
    cases hh : n.items with
    | nil => exact absurd hh (accepted_enums hA n hn)
    | cons i is => exact ⟨i, rfl⟩
  obtain ⟨N, h⟩ := h
  have h := h (N + 2) (by omega)
  simp only [genTy] at h
  rw [defTy_enum hN (typesOk_of_wf hA.wf) hC (accepted_enums hA) hn hi] at h
  cases hm : defMany (defTy D (genItems S) (N + 1)) (((payload i).map (·.2)).map genTy) with
  | error e => rw [hm] at h; simp [bind, Except.bind] at h
  | ok pvs =>
    rw [hm] at h
    simp only [bind, Except.bind, Except.ok.injEq] at h
    cases hit : n.items with
    | nil => rw [hit] at hi; simp at hi
    | cons j rest =>
      rw [hit] at hi
      simp only [List.head?_cons, Option.some.injEq] at hi
      subst hi
      refine ⟨j, rest, _, rfl, h.symm, ?_⟩
      have := defMany_length hm
      simp only [List.length_map] at this
      simp [named, List.map_fst_zip, this]

/-- C46 for structs: the default has all the fields, in order, each with the default of its type. -/
theorem C46_struct_fields_partial (D : Defaults) (S : List ASTNode) (hA : Accepted S) (hN : WellNamed S)
    (hC : NoCharFields S) :
    ∃ items, EmitsItems S items ∧
      ∀ n, .struct n ∈ S → ∀ v, HasDefault D items (.other n.id) v →
        ∃ fvs, v = .struct n.id ((n.fields.map (·.name)).zip fvs) ∧ n.fields.length = fvs.length ∧
          ∀ (k : Nat) (f : StructField) (fv : Val), n.fields[k]? = some f → fvs[k]? = some fv →
            HasDefault D items f.typeId fv := by
  refine ⟨genItems S, (emitted_models S hA).1, fun n hn v h => ?_⟩
  obtain ⟨N, h⟩ := h
  have h := h (N + 2) (by omega)
  simp only [genTy] at h
  rw [defTy_struct hN (typesOk_of_wf hA.wf) hC (accepted_enums hA) hn] at h
  cases hm : defMany (defTy D (genItems S) (N + 1)) (((fieldsOf n).map (·.2)).map genTy) with
  | error e => rw [hm] at h; simp [bind, Except.bind] at h
  | ok fvs =>
    rw [hm] at h
    simp only [bind, Except.bind, Except.ok.injEq] at h
    have hl := defMany_length hm
    refine ⟨fvs, ?_, by simpa [fieldsOf] using hl, ?_⟩
    · rw [← h]; simp [named, fieldsOf, Function.comp_def]
    · intro k f fv hf hfv
      have hW : WFType f.typeId := (typesOk_of_wf hA.wf).1 n hn (f.name, f.typeId) (by
        simp only [fieldsOf, List.mem_map]
        exact ⟨f, List.mem_of_getElem? hf, rfl⟩)
      rw [hasDefault_iff hA hN hC hW]
      have key : ∀ (ts : List Ty) (vs : List Val), defMany (defTy D (genItems S) (N + 1)) ts = .ok vs →
          ∀ (k : Nat) (t : Ty) (w : Val), ts[k]? = some t → vs[k]? = some w → defTy D (genItems S) (N + 1) t = .ok w := by
        intro ts
        induction ts with
        | nil => intro vs _ k t w ht _; simp at ht
        | cons t0 ts ih =>
          intro vs h k t w ht hw
          simp only [defMany, bind, Except.bind] at h
          cases h1 : defTy D (genItems S) (N + 1) t0 with
          | error e => rw [h1] at h; simp at h
          | ok v0 =>
            rw [h1] at h
            simp only at h
            cases h2 : defMany (defTy D (genItems S) (N + 1)) ts with
            | error e => rw [h2] at h; simp at h
            | ok vs' =>
              rw [h2] at h
              simp only [Except.ok.injEq] at h
              subst h
              cases k with
              | zero =>
                simp only [List.getElem?_cons_zero, Option.some.injEq] at ht hw
                subst ht hw
                exact h1
              | succ k =>
                simp only [List.getElem?_cons_succ] at ht hw
                exact ih vs' h2 k t w ht hw
      have e := key _ fvs hm k (genTy f.typeId) fv (by simp [fieldsOf, hf]) hfv
      exact eval_default hN (typesOk_of_wf hA.wf) hC (accepted_enums hA) (N + 1) [f.typeId] [fv]
        (by simpa using hW) (defMany_single.2 e)

/-! ### The hypotheses are met by the sample schema, and its defaults exist -/

/-- Empty string and empty vector as library defaults. -/
def libDefaults : Defaults where
  ext id := if id = "String" then some (.list 0 []) else none
  shape c := if c = "Vec" then some 0 else none
  sub _ n := List.replicate n 0

theorem wireSchema_noChar : NoCharFields wireSchema := by
  constructor
  · intro n hn f hf c
    simp only [wireSchema, List.mem_cons, ASTNode.struct.injEq, reduceCtorEq, List.not_mem_nil, or_false, false_or] at hn
    rcases hn with rfl | rfl
    · simp only [fieldsOf, List.map_cons, List.map_nil, List.mem_cons, List.not_mem_nil, or_false] at hf
      rcases hf with rfl | rfl | rfl <;> simp
    · simp [fieldsOf] at hf
  · intro n hn i hi f hf c
    simp only [wireSchema, List.mem_cons, ASTNode.enum.injEq, reduceCtorEq, List.not_mem_nil, or_false, false_or] at hn
    subst hn
    simp only [List.head?_cons, Option.some.injEq] at hi
    subst hi
    simp [payload] at hf

example : ∃ items, EmitsItems wireSchema items ∧
    HasDefault libDefaults items (.other "Point")
      (.struct "Point" [("x", .int 0), ("path", .list 0 []), ("name", .list 0 [])]) ∧
    HasDefault libDefaults items (.other "Shape") (.enum "Shape" "None" []) := by
  obtain ⟨items, h1, h2⟩ := C46_default_partial libDefaults wireSchema wireSchema_accepted wireSchema_wellNamed
    wireSchema_noChar
  refine ⟨items, h1, (h2 _ (.name "Point") _).2 ?_, (h2 _ (.name "Shape") _).2 ?_⟩
  · exact .struct ⟨"Point", _, true, true⟩ [.int 0, .list 0 [], .list 0 []] [] [] (.head _)
      (.leaf _ _ _ _ rfl (.list "Vec" _ 0 [] [] _ _ rfl rfl .nil (.ext _ _ _ _ (by decide) rfl .nil))) .nil
  · exact .enum ⟨"Shape", _⟩ (.empty 3 "None") [] [] [] (.tail _ (.head _)) rfl .nil .nil

/-! ### The excluded case: `char` fields -/

/-- `struct C { c: char }` -/
def charSchema : List ASTNode := [.struct ⟨"C", [⟨0, "c", .char "char"⟩], true, true⟩]

theorem charSchema_accepted : Accepted charSchema := by
  have h : WFType (.char "char") := .name "char"
  obtain ⟨ts, _, h⟩ := C09_every_schema charSchema ⟨⟨⟨.inl rfl, by simpa using h⟩, rfl, rfl⟩, trivial⟩
  exact ⟨_, h⟩

/-- C46 is violated by `char` fields: the emitted default of a `char` field is the integer literal `0`,
which is not a `char`, so `C::default()` has no value, although the specification gives one. -/
theorem C46_char_field (D : Defaults) :
    DefaultOf D charSchema [.other "C"] [.struct "C" [("c", .int 0)]] ∧
    ∃ items, EmitsItems charSchema items ∧ ∀ v, ¬ HasDefault D items (.other "C") v := by
  refine ⟨.struct ⟨"C", _, true, true⟩ [.int 0] [] [] (.head _) (.leaf _ _ _ _ rfl .nil) .nil,
    genItems charSchema, (emitted_models _ charSchema_accepted).1, ?_⟩
  rintro v ⟨N, h⟩
  have h := h (N + 2) (by omega)
  have e : defTy D (genItems charSchema) (N + 2) (genTy (.other "C")) = .error .stuck := by
    have : (genItems charSchema).find? (fun i => i.decl.id = "C") =
        some (genStructItem ⟨"C", [⟨0, "c", .char "char"⟩], true, true⟩) := by rfl
    simp only [genTy, defTy, this]
    rfl
  rw [e] at h
  simp at h

end TPB.Props
