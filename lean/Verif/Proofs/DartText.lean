/- The text of the Dart generator is the printed form of the trees of `Sem/DartIR.lean`. -/
import Verif.Sem.DartIR
import Verif.Spec.WellFormed
namespace TPB.Dart
open Spec DartGen

/-- The sizes of built-in types that the language has. -/
def Sized : TypeId → Prop
  | .integer _ s _ => s = 1 ∨ s = 4 ∨ s = 8
  | .number _ s => s = 4 ∨ s = 8
  | _ => True

theorem sized_of_wf {t : TypeId} (h : WFType t) : Sized t := by
  cases h with
  | name n =>
    have key : ∀ (l : List (String × TypeId)), (∀ p ∈ l, Sized p.2) → ∀ m, Sized ((l.lookup n).getD (.other m)) := by
      intro l
      induction l with
      | nil => intro _ m; simp [Sized]
      | cons p l ih =>
        intro hl m
        rw [List.lookup_cons]
        cases hn : n == p.1 with
        | true => exact hl p (by simp)
        | false => exact ih (fun q hq => hl q (by simp [hq])) m
    exact key builtinTypes (by simp [builtinTypes, Sized]) n
  | generic n as _ _ => trivial

theorem typeId_render (t : TypeId) : DartGen.typeId t = (genTy t).render := by
  match t with
  | .integer _ _ _ | .number _ _ | .bool _ | .char _ | .other _ =>
    simp [DartGen.typeId, genTy, Ty.render]
  | .generic id gs =>
    simp only [DartGen.typeId, genTy, genTys_eq, Ty.render, renderTys_eq, List.map_map]
    rw [List.map_congr_left (fun x hx => typeId_render x)]
    rfl
termination_by sizeOf t

theorem typeArgs_render (gs : List TypeId) : typeArgs gs = joinStr ", " ((gs.map genTy).map Ty.render) := by
  unfold typeArgs
  rw [List.map_map]
  congr 1
  exact List.map_congr_left (fun x _ => typeId_render x)

theorem prim_text {t : TypeId} (hs : Sized t) (h1 : ∀ id, t ≠ .other id) (h2 : ∀ id gs, t ≠ .generic id gs) :
    DartGen.read t = .ok ("reader.read" ++ methodOf t ++ "()") ∧
    ∀ a, DartGen.write t a = .ok ("writer.write" ++ methodOf t ++ "(" ++ a ++ ");") := by
  cases t with
  | other id => exact absurd rfl (h1 id)
  | generic id gs => exact absurd rfl (h2 id gs)
  | bool _ => exact ⟨rfl, fun _ => rfl⟩
  | char _ => exact ⟨rfl, fun _ => rfl⟩
  | integer _ s _ => rcases hs with h | h | h <;> subst h <;> exact ⟨rfl, fun _ => rfl⟩
  | number _ s => rcases hs with h | h <;> subst h <;> exact ⟨rfl, fun _ => rfl⟩

/-- Rendering of the codec of a generic type, as in the generator's three branches. -/
theorem codecG_render (k : Kind) (id : String) (gs : List TypeId) :
    (genCodecG k id gs).render =
      match gs with
      | [g] => if id = "Vec" then "const List" ++ k.suffix ++ "<" ++ typeId g ++ ">(const " ++ classPrefix g
          ++ "IntoBuffers())"
        else "const " ++ id ++ k.suffix ++ "<" ++ typeArgs gs ++ ">()"
      | _ => "const " ++ id ++ k.suffix ++ "<" ++ typeArgs gs ++ ">()" := by
  unfold genCodecG
  split
  · next g =>
    split
    · simp only [Codec.render, typeId_render]
    · simp only [Codec.render, typeArgs_render, List.map_cons, List.map_nil]
  · next gs hg =>
    split
    · next g => exact absurd rfl (hg g)
    · simp only [Codec.render, typeArgs_render]

theorem read_render {t : TypeId} (hs : Sized t) : DartGen.read t = .ok (genRead t).render := by
  cases t with
  | generic id gs =>
    simp only [genRead, ReadE.render, codecG_render]
    unfold DartGen.read
    dsimp only
    split
    · split <;> simp [Kind.suffix, String.append_assoc, *]
    · simp [Kind.suffix, String.append_assoc]
  | other id =>
    simp [DartGen.read, genRead, ReadE.render, Codec.render, Kind.suffix, String.append_assoc]
  | _ => exact (prim_text hs (by intros; simp) (by intros; simp)).1

theorem readEmplace_render {t : TypeId} (hs : Sized t) (a : Acc) :
    DartGen.readEmplace t a.render = .ok (genReadEmplace t a).render := by
  cases t with
  | generic id gs =>
    simp only [genReadEmplace, EmplS.render, codecG_render]
    unfold DartGen.readEmplace
    dsimp only
    split
    · split <;> simp [Kind.suffix, String.append_assoc, *]
    · simp [Kind.suffix, String.append_assoc]
  | other id =>
    unfold DartGen.readEmplace genReadEmplace
    dsimp only
    split
    · simp only [EmplS.render, ReadE.render, Codec.render, Kind.suffix, String.append_assoc]
      rw [← String.append_assoc (s₁ := " = ")]; rfl
    · simp [EmplS.render, Codec.render, Kind.suffix, String.append_assoc]
  | _ =>
    have h := read_render hs
    unfold DartGen.readEmplace genReadEmplace
    dsimp only
    rw [h]; rfl

theorem readSkip_render {t : TypeId} (hs : Sized t) :
    DartGen.readSkip t = .ok (genSkip .into t).render := by
  cases t with
  | generic id gs =>
    simp only [genSkip, SkipS.render, codecG_render]
    unfold DartGen.readSkip
    dsimp only
    split
    · split <;> simp [Kind.suffix, String.append_assoc, *]
    · simp [Kind.suffix, String.append_assoc]
  | other id =>
    unfold DartGen.readSkip genSkip
    simp [SkipS.render, Codec.render, Kind.suffix, String.append_assoc]
  | _ =>
    have h := (prim_text hs (by intros; simp) (by intros; simp)).1
    unfold DartGen.readSkip genSkip
    dsimp only
    rw [h]; simp [SkipS.render, String.append_assoc]

theorem readSkipEmplace_render {t : TypeId} (hs : Sized t) :
    DartGen.readSkipEmplace t = .ok (genSkip .emplace t).render := by
  cases t with
  | generic id gs =>
    simp only [genSkip, SkipS.render, codecG_render]
    unfold DartGen.readSkipEmplace
    dsimp only
    split
    · split <;> simp [Kind.suffix, String.append_assoc, *]
    · simp [Kind.suffix, String.append_assoc]
  | other id =>
    unfold DartGen.readSkipEmplace genSkip emplKind
    dsimp only
    split <;> simp [SkipS.render, Codec.render, Kind.suffix, String.append_assoc]
  | _ =>
    have h := (prim_text hs (by intros; simp) (by intros; simp)).1
    unfold DartGen.readSkipEmplace genSkip
    dsimp only
    rw [h]; simp [SkipS.render, String.append_assoc]

theorem write_render {t : TypeId} (hs : Sized t) (a : Acc) :
    DartGen.write t a.render = .ok (genWrite .into t a).render := by
  cases t with
  | generic id gs =>
    simp only [genWrite, WriteS.render, codecG_render]
    unfold DartGen.write
    dsimp only
    split
    · split <;> simp [Kind.suffix, String.append_assoc, *]
    · simp [Kind.suffix, String.append_assoc]
  | other id =>
    unfold DartGen.write genWrite
    simp [WriteS.render, Codec.render, Kind.suffix, String.append_assoc]
  | _ => exact (prim_text hs (by intros; simp) (by intros; simp)).2 _

theorem writeEmplace_render {t : TypeId} (hs : Sized t) (a : Acc) :
    DartGen.writeEmplace t a.render = .ok (genWrite .emplace t a).render := by
  cases t with
  | generic id gs =>
    simp only [genWrite, WriteS.render, codecG_render]
    unfold DartGen.writeEmplace
    dsimp only
    split
    · split <;> simp [Kind.suffix, String.append_assoc, *]
    · simp [Kind.suffix, String.append_assoc]
  | other id =>
    unfold DartGen.writeEmplace genWrite emplKind
    dsimp only
    split <;> simp [WriteS.render, Codec.render, Kind.suffix, String.append_assoc]
  | _ => exact (prim_text hs (by intros; simp) (by intros; simp)).2 _

/-! ### Loops -/

theorem loopM_wAt {α : Type} (u : Nat) (f : Writer → α → Except Panic Writer) (L : α → List Line)
    (xs : List α) (h : ∀ x ∈ xs, ∀ r, f (wAt u r) x = .ok (wAt u (r ++ linesText u (L x)))) (r : String) :
    loopM f xs (wAt u r) = .ok (wAt u (r ++ linesText u (xs.flatMap L))) := by
  induction xs generalizing r with
  | nil => simp [loopM, linesText]
  | cons x xs ih =>
    rw [loopM, h x (by simp)]
    dsimp only
    rw [ih (fun y hy => h y (by simp [hy]))]
    simp [linesText_append, String.append_assoc]

theorem loopM_line {α : Type} (u t : Nat) (f : Writer → α → Except Panic Writer) (g : α → String)
    (xs : List α) (h : ∀ x ∈ xs, ∀ r, f (wAt u r) x = .ok (wAt u (r ++ linesText u [(t, g x)]))) (r : String) :
    loopM f xs (wAt u r) = .ok (wAt u (r ++ linesText u (xs.map (fun x => (t, g x))))) := by
  rw [loopM_wAt u f (fun x => [(t, g x)]) xs h, List.map_eq_flatMap]

/-- A loop that writes a blank line after every element but the last. -/
theorem foldIdx_join {α : Type} (u : Nat) (f : Writer → Nat → α → Writer) (L : α → List Line) (c : Nat)
    (xs : List α) (i : Nat) (hc : i + xs.length = c)
    (h : ∀ x ∈ xs, ∀ j r, f (wAt u r) j x
      = wAt u (r ++ linesText u (L x ++ if j ≠ c - 1 then [(0, "")] else []))) (r : String) :
    foldIdx f i xs (wAt u r) = wAt u (r ++ linesText u (joinBlocks (xs.map L))) := by
  induction xs generalizing i r with
  | nil => simp [foldIdx, joinBlocks, linesText]
  | cons x xs ih =>
    rw [foldIdx, h x (by simp)]
    cases xs with
    | nil =>
      have : i = c - 1 := by simp at hc; omega
      simp [this, foldIdx, joinBlocks]
    | cons y ys =>
      have hne : i ≠ c - 1 := by simp at hc; omega
      rw [ih (i + 1) (by simp at hc ⊢; omega) (fun z hz => h z (by simp [hz]))]
      simp [hne, joinBlocks, linesText_append, String.append_assoc, linesText]

/-! ### Struct codecs -/

variable (x : Ext)

/-- The built-in types of the fields have the sizes of the language. -/
def SizedFields (fs : List StructField) : Prop := ∀ f ∈ fs, Sized f.typeId

theorem structSkip_render (k : Kind) (skip : TypeId → Except Panic String)
    (hk : ∀ t, Sized t → skip t = .ok (genSkip k t).render) (n : StructNode) (hs : SizedFields n.fields) :
    structSkip skip n = .ok (linesText 2 (genSkipBody k n.fields).render) := by
  have h1 : ∀ fs : List StructField, SizedFields fs → ∀ r, loopM (fun w (f : StructField) =>
      if isOther f.typeId then lineM 2 skip w f.typeId else .ok w) fs (wAt 2 r)
      = .ok (wAt 2 (r ++ linesText 2
        (((fs.filter (fun f => isOther f.typeId)).map (fun f => genSkip k f.typeId)).map
          (fun s => (2, s.render))))) := by
    intro fs hs r
    rw [loopM_wAt 2 _ (fun f => if isOther f.typeId then [(2, (genSkip k f.typeId).render)] else [])]
    · congr 4
      clear hs
      induction fs with
      | nil => rfl
      | cons f fs ih => cases hf : isOther f.typeId <;> simp [hf, ih]
    · intro f hf r
      simp only [lineM, hk _ (hs f hf)]
      cases hf : isOther f.typeId <;> simp [writelnTab_wAt, linesText]
  have h2 : ∀ fs : List StructField, SizedFields fs → ∀ r, loopM (fun w (f : StructField) =>
      if isOther f.typeId then .ok w else lineM 3 skip w f.typeId) fs (wAt 2 r)
      = .ok (wAt 2 (r ++ linesText 2
        (((fs.filter (fun f => !isOther f.typeId)).map (fun f => genSkip k f.typeId)).map
          (fun s => (3, s.render))))) := by
    intro fs hs r
    rw [loopM_wAt 2 _ (fun f => if isOther f.typeId then [] else [(3, (genSkip k f.typeId).render)])]
    · congr 4
      clear hs
      induction fs with
      | nil => rfl
      | cons f fs ih => cases hf : isOther f.typeId <;> simp [hf, ih]
    · intro f hf r
      simp only [lineM, hk _ (hs f hf)]
      cases hf : isOther f.typeId <;> simp [writelnTab_wAt, linesText]
  unfold structSkip
  simp only [new_eq, writelnTab_wAt, h1 n.fields hs]
  have hb : n.fields.any (fun f => isOther f.typeId)
      = !((n.fields.filter (fun f => isOther f.typeId)).map (fun f => genSkip k f.typeId)).isEmpty := by
    generalize n.fields = fs
    induction fs with
    | nil => rfl
    | cons f fs ih => cases hf : isOther f.typeId <;> simp [hf, ih]
  rw [hb]
  cases he : ((n.fields.filter (fun f => isOther f.typeId)).map (fun f => genSkip k f.typeId)).isEmpty with
  | true =>
    simp only [Bool.not_true, Bool.false_eq_true, if_false, h2 n.fields hs, writelnTab_wAt, show_wAt,
      SkipBody.render, genSkipBody, he, if_true, skipHeader, Except.ok.injEq]
    simp only [linesText_append, String.append_assoc, String.empty_append, linesText, String.append_empty,
      List.append_nil, List.cons_append, List.nil_append]
  | false =>
    simp only [Bool.not_false, if_true, writeln_wAt, h2 n.fields hs, writelnTab_wAt, show_wAt,
      SkipBody.render, genSkipBody, he, Bool.false_eq_true, if_false, skipHeader, Except.ok.injEq]
    simp only [linesText_append, String.append_assoc, String.empty_append, linesText, String.append_empty,
      List.append_nil, List.cons_append, List.nil_append]

theorem structInto_render (n : StructNode) (hs : SizedFields n.fields) :
    (structInto x n).map (· ++ "\n") = .ok (linesText 2 (genStructInto x n).render) := by
  have h1 : ∀ r, loopM (lineM 2 (readLocal x)) n.fields (wAt 2 r)
      = .ok (wAt 2 (r ++ linesText 2 (n.fields.map (fun f =>
        (2, "final " ++ x.camel f.name ++ " = " ++ (genRead f.typeId).render ++ ";"))))) := by
    intro r
    refine loopM_line 2 2 _ _ _ (fun f hf r => ?_) r
    simp only [lineM, readLocal, read_render (hs f hf), writelnTab_wAt]
  have h2 : ∀ r, loopM (lineM 2 (fun f : StructField => write f.typeId ("model." ++ x.camel f.name))) n.fields (wAt 2 r)
      = .ok (wAt 2 (r ++ linesText 2 (n.fields.map (fun f =>
        (2, (genWrite .into f.typeId (.field (x.camel f.name))).render))))) := by
    intro r
    refine loopM_line 2 2 _ _ _ (fun f hf r => ?_) r
    simp only [lineM, show "model." ++ x.camel f.name = (Acc.field (x.camel f.name)).render from rfl,
      write_render (hs f hf), writelnTab_wAt]
  have hk : structSkip readSkip n = .ok (linesText 2 (genSkipBody .into n.fields).render) :=
    structSkip_render .into readSkip (fun t ht => readSkip_render ht) n hs
  unfold structInto structIntoRead structIntoWrite
  simp only [new_eq, writelnTab_wAt, writeln_wAt, h1, h2, hk, write_wAt, show_wAt, foldl_line, Except.map,
    CodecClass.render, genStructInto, CodecBody.render, CodecBody.kind, Kind.renderHead, readHeader, writeHeader,
    renderWrites, List.map_map, Function.comp_def, Except.ok.injEq]
  simp only [linesText_append, String.append_assoc, String.empty_append, linesText, String.append_empty,
    List.append_nil, List.cons_append, List.nil_append, repeatStr]

theorem structEmplace_render (n : StructNode) (hs : SizedFields n.fields) :
    structEmplace x n = .ok (linesText 2 (genStructEmplace x n).render) := by
  have h1 : ∀ r, loopM (lineM 2 (fun f : StructField => readEmplace f.typeId ("model." ++ x.camel f.name))) n.fields (wAt 2 r)
      = .ok (wAt 2 (r ++ linesText 2 (n.fields.map (fun f =>
        (2, (genReadEmplace f.typeId (.field (x.camel f.name))).render))))) := by
    intro r
    refine loopM_line 2 2 _ _ _ (fun f hf r => ?_) r
    simp only [lineM, show "model." ++ x.camel f.name = (Acc.field (x.camel f.name)).render from rfl,
      readEmplace_render (hs f hf), writelnTab_wAt]
  have h2 : ∀ r, loopM (lineM 2 (fun f : StructField => writeEmplace f.typeId ("model." ++ x.camel f.name))) n.fields (wAt 2 r)
      = .ok (wAt 2 (r ++ linesText 2 (n.fields.map (fun f =>
        (2, (genWrite .emplace f.typeId (.field (x.camel f.name))).render))))) := by
    intro r
    refine loopM_line 2 2 _ _ _ (fun f hf r => ?_) r
    simp only [lineM, show "model." ++ x.camel f.name = (Acc.field (x.camel f.name)).render from rfl,
      writeEmplace_render (hs f hf), writelnTab_wAt]
  have hk : structSkip readSkipEmplace n = .ok (linesText 2 (genSkipBody .emplace n.fields).render) :=
    structSkip_render .emplace readSkipEmplace (fun t ht => readSkipEmplace_render ht) n hs
  unfold structEmplace structEmplaceRead structEmplaceWrite
  simp only [new_eq, writelnTab_wAt, writeln_wAt, h1, h2, hk, write_wAt, show_wAt,
    CodecClass.render, genStructEmplace, CodecBody.render, CodecBody.kind, Kind.renderHead, emplaceHeader, writeHeader,
    renderWrites, List.map_map, Function.comp_def, Except.ok.injEq]
  simp only [linesText_append, String.append_assoc, String.empty_append, linesText, String.append_empty,
    List.append_nil, List.cons_append, List.nil_append, repeatStr]

/-! ### Enum codecs -/

theorem enumWrite_render (n : EnumNode) :
    enumWrite x n = linesText 2 (renderEnumWrites n.id (n.items.map (genWriteCase x n))) := by
  have h : ∀ r, foldIdx (enumWriteItem x n) 0 n.items (wAt 2 r) = wAt 2 (r ++ linesText 2
      (joinBlocks (n.items.map (fun i => (genWriteCase x n i).render n.id)))) := by
    intro r
    refine foldIdx_join 2 _ _ n.items.length n.items 0 (by simp) (fun i _ j r => ?_) r
    unfold enumWriteItem
    split <;>
    simp only [writelnTab_wAt, writeln_wAt, WriteCase.render, genWriteCase, variantCodec, Codec.render,
      Kind.suffix, linesText_append, String.append_assoc, String.empty_append, linesText,
      String.append_empty, List.append_nil, List.cons_append, List.nil_append, repeatStr] <;> rfl
  unfold enumWrite
  simp only [new_eq, writelnTab_wAt, h, show_wAt, renderEnumWrites, writeHeader, List.map_map,
    Function.comp_def]
  simp only [linesText_append, String.append_assoc, String.empty_append, linesText, String.append_empty]

theorem enumSkip_render (n : EnumNode) :
    enumSkip n = linesText 2 (renderEnumSkips (n.items.map (genSkipCase n))) := by
  have h : ∀ r i, enumSkipItem n (wAt 2 r) i = wAt 2 (r ++ linesText 2 (genSkipCase n i).render) := by
    intro r i
    simp only [enumSkipItem, writelnTab_wAt, writeln_wAt, SkipCase.render, genSkipCase, variantCodec,
      Codec.render, Kind.suffix, linesText_append, String.append_assoc, String.empty_append, linesText,
      String.append_empty, repeatStr]
    rfl
  unfold enumSkip
  simp only [new_eq, writelnTab_wAt, writeln_wAt, foldl_wAt 2 _ _ h, show_wAt, renderEnumSkips, skipHeader,
    renderTagSwitch, List.flatMap_map]
  simp only [linesText_append, String.append_assoc, String.empty_append, linesText, String.append_empty]

theorem enumInto_render (n : EnumNode) :
    enumInto x n = linesText 2 (genEnumInto x n).render := by
  have h : ∀ r i, enumIntoReadItem x n (wAt 2 r) i
      = wAt 2 (r ++ linesText 2 ((genReadCase x n i).renderInto n.id)) := by
    intro r i
    simp only [enumIntoReadItem, writelnTab_wAt, writeln_wAt, ReadCase.renderInto, genReadCase, variantCodec,
      Codec.render, Kind.suffix, linesText_append, String.append_assoc, String.empty_append, linesText,
      String.append_empty, repeatStr]
    rfl
  unfold enumInto enumIntoRead
  simp only [new_eq, writelnTab_wAt, writeln_wAt, write_wAt, foldl_wAt 2 _ _ h, show_wAt, enumWrite_render,
    enumSkip_render, CodecClass.render, genEnumInto, CodecBody.render, CodecBody.kind, Kind.renderHead,
    readHeader, renderTagSwitch, List.flatMap_map]
  simp only [linesText_append, String.append_assoc, String.empty_append, linesText, String.append_empty,
    repeatStr]

theorem enumEmplace_render (n : EnumNode) :
    enumEmplace x n = linesText 2 (genEnumEmplace x n).render := by
  have h : ∀ r i, enumEmplaceReadItem x n (wAt 2 r) i
      = wAt 2 (r ++ linesText 2 ((genReadCase x n i).renderEmplace n.id)) := by
    intro r i
    simp only [enumEmplaceReadItem, writelnTab_wAt, writeln_wAt, ReadCase.renderEmplace, genReadCase,
      variantCodec, Codec.render, Kind.suffix, linesText_append, String.append_assoc, String.empty_append,
      linesText, String.append_empty, repeatStr]
    rfl
  unfold enumEmplace enumEmplaceRead
  simp only [new_eq, writelnTab_wAt, writeln_wAt, write_wAt, foldl_wAt 2 _ _ h, show_wAt, enumWrite_render,
    enumSkip_render, CodecClass.render, genEnumEmplace, CodecBody.render, CodecBody.kind, Kind.renderHead,
    emplaceHeader, renderTagSwitch, List.flatMap_map]
  simp only [linesText_append, String.append_assoc, String.empty_append, linesText, String.append_empty,
    repeatStr]

/-! ### The buffers section -/

/-- Blocks, each followed by a blank line. -/
def blanks (cs : List CodecClass) : List Line := (cs.map CodecClass.render).flatMap (fun b => b ++ [(0, "")])

theorem structBuffers_render (n : StructNode) (hs : SizedFields n.fields) :
    (∃ s, structBuffers x n = .ok s ∧ s ++ "\n" = linesText 2 (blanks (genStructCodecs x n))) ∨
      n.intoBuffers = false ∨ n.emplaceBuffers = false := by
  cases he : n.emplaceBuffers with
  | false => simp
  | true =>
  cases hi : n.intoBuffers with
  | false => simp
  | true =>
  obtain ⟨s, hs1, hs2⟩ : ∃ s, structInto x n = .ok s ∧ s ++ "\n" = linesText 2 (genStructInto x n).render := by
    have h := structInto_render x n hs
    cases h' : structInto x n with
    | error e => rw [h'] at h; simp [Except.map] at h
    | ok s => rw [h'] at h; simp [Except.map] at h; exact ⟨s, rfl, h⟩
  refine .inl ⟨linesText 2 ((genStructEmplace x n).render ++ [(0, "")]) ++ (s ++ "\n"), ?_, ?_⟩
  · unfold structBuffers
    simp only [he, hi, if_true, structEmplace_render x n hs, hs1, new_eq, writeln_wAt, writeln_block,
      show_wAt, String.empty_append]
    simp [linesText, repeatStr]
  · rw [hs2]
    simp [genStructCodecs, he, hi, blanks, linesText_append, linesText, repeatStr, String.append_assoc]

theorem sized_item {n : EnumNode} {i : EnumItem} (h : WFItem i) : SizedFields (enumItemStruct n i).fields := by
  cases i with
  | empty _ _ => intro f hf; simp [enumItemStruct] at hf
  | struct _ _ fs => exact fun f hf => sized_of_wf (h.2 f hf)
  | tuple _ _ vs =>
    have key : ∀ (vs : List TupleField) k, (∀ v ∈ vs, WFType v.typeId) → ∀ f ∈ tupleStructFields k vs,
        Sized f.typeId := by
      intro vs
      induction vs with
      | nil => intro k _ f hf; simp [tupleStructFields] at hf
      | cons v vs ih =>
        intro k hv f hf
        rw [tupleStructFields] at hf
        rcases List.mem_cons.1 hf with rfl | hf
        · exact sized_of_wf (hv v (by simp))
        · exact ih (k + 1) (fun w hw => hv w (by simp [hw])) f hf
    exact key vs 0 h.2

theorem enumBuffers_render (n : EnumNode) (hs : ∀ i ∈ n.items, WFItem i) :
    ∃ s, enumBuffers x n = .ok s ∧ s ++ "\n" = linesText 2 (blanks (genEnumCodecs x n)) := by
  have h : ∀ r, loopM (enumVariantItem x n) n.items (wAt 2 r) = .ok (wAt 2 (r ++ linesText 2
        (n.items.flatMap (fun i => (genStructEmplace x (enumItemStruct n i)).render ++ [(0, "")])))) := by
    intro r
    refine loopM_wAt 2 _ _ _ (fun i hi r => ?_) r
    simp only [enumVariantItem, structEmplace_render x _ (sized_item (hs i hi)), writeln_wAt, writeln_block]
  refine ⟨linesText 2 (n.items.flatMap (fun i => (genStructEmplace x (enumItemStruct n i)).render ++ [(0, "")]))
    ++ linesText 2 ((genEnumInto x n).render ++ [(0, "")]) ++ linesText 2 (genEnumEmplace x n).render, ?_, ?_⟩
  · unfold enumBuffers
    simp only [new_eq, h, writeln_wAt, write_wAt, show_wAt, enumInto_render, enumEmplace_render,
      writeln_block, String.empty_append]
  · simp [genEnumCodecs, blanks, linesText_append, linesText, repeatStr, String.append_assoc,
      List.flatMap_map]

theorem codecClass_ne_nil (c : CodecClass) : c.render ≠ [] := by simp [CodecClass.render]

/-- The buffers section is the text of the codec classes, separated by blank lines. -/
theorem buffers_render (S : List ASTNode) (k : Nat) (hs : ∀ d ∈ S, WFDecl k d ∨ ∃ f, d = .fn f) :
    buffers x S = .ok (linesText 2 (joinBlocks ((genCodecs x S).map CodecClass.render))) := by
  have h : loopM (buffersItem x) S (wAt 2 "") = .ok (wAt 2 ("" ++ linesText 2
      (S.flatMap (fun d => blanks (match d with
        | .struct n => genStructCodecs x n
        | .enum n => genEnumCodecs x n
        | _ => []))))) := by
    refine loopM_wAt 2 _ _ _ (fun d hd r => ?_) ""
    cases d with
    | struct n =>
      rcases hs _ hd with h | ⟨f, hf⟩
      · obtain ⟨hw, he, hi⟩ := h
        obtain ⟨s, h⟩ | h | h := structBuffers_render x n (fun f hf => sized_of_wf (hw.2 f hf))
        · simp only [buffersItem, h.1, writeln_wAt, ← h.2]
          simp [linesText, repeatStr]
        · rw [hi] at h; exact absurd h (by simp)
        · rw [he] at h; exact absurd h (by simp)
      · exact absurd hf (by simp)
    | enum n =>
      rcases hs _ hd with h | ⟨f, hf⟩
      · obtain ⟨s, h1, h2⟩ := enumBuffers_render x n h.2.2
        simp only [buffersItem, h1, writeln_wAt, ← h2]
        simp [linesText, repeatStr]
      · exact absurd hf (by simp)
    | fn _ => simp [buffersItem, blanks, linesText]
    | const _ => simp [buffersItem, blanks, linesText]
    | directive _ => simp [buffersItem, blanks, linesText]
  have e : S.flatMap (fun d => blanks (match d with
        | .struct n => genStructCodecs x n
        | .enum n => genEnumCodecs x n
        | _ => [])) = ((genCodecs x S).map CodecClass.render).flatMap (fun b => b ++ [(0, "")]) := by
    unfold genCodecs blanks
    rw [List.map_flatMap, List.flatMap_assoc]
    rfl
  unfold buffers
  rw [new_eq, h]
  simp only [show_wAt, String.empty_append]
  rw [e, trimOnce_blocks]
  intro b hb
  obtain ⟨c, _, rfl⟩ := List.mem_map.1 hb
  exact codecClass_ne_nil c

/-! ### The models section -/

theorem default_render (t : TypeId) : defaultConst t = (genDef t).render := by
  cases t with
  | generic id gs => simp only [defaultConst, genDef, DefE.render, typeArgs_render]
  | _ => simp [defaultConst, genDef, DefE.render]

/-- The initializer list without its first indentation. -/
def initText : List (String × DefE) → String
  | [] => ""
  | [i] => i.1 ++ " = " ++ i.2.render ++ ";" ++ "\n"
  | i :: j :: is => i.1 ++ " = " ++ i.2.render ++ "," ++ "\n" ++ repeatStr (repeatStr " " 2) 3 ++ "  " ++ initText (j :: is)

theorem initText_render (b : Bool) (is : List (String × DefE)) (h : is ≠ []) :
    repeatStr (repeatStr " " 2) 3 ++ (if b then ": " else "  ") ++ initText is
      = linesText 2 (renderInits b is) := by
  induction is generalizing b with
  | nil => exact absurd rfl h
  | cons i is ih =>
    cases is with
    | nil => simp only [initText, renderInits, linesText, String.append_assoc, String.append_empty]
    | cons j is =>
      simp only [initText, renderInits, linesText, ← ih false (by simp), String.append_assoc]
      simp

theorem structDefaultInit_render (fs : List StructField) (c i : Nat) (hc : i + fs.length = c) (r : String)
    (h : fs ≠ []) :
    foldIdx (structDefaultInit x c) i fs (wAt 2 r)
      = wAt 2 (r ++ initText (fs.map (fun f => (x.camel f.name, genDef f.typeId)))) := by
  induction fs generalizing i r with
  | nil => exact absurd rfl h
  | cons f fs ih =>
    rw [foldIdx]
    cases fs with
    | nil =>
      have : i = c - 1 := by simp at hc; omega
      simp only [structDefaultInit, this, if_true, write_wAt, writeln_wAt, foldIdx, List.map_cons,
        List.map_nil, initText, default_render, linesText, repeatStr, String.append_assoc,
        String.empty_append, String.append_empty]
    | cons g fs =>
      have hne : i ≠ c - 1 := by simp at hc; omega
      simp only [structDefaultInit, hne, if_false, write_wAt, writeln_wAt, writeTab_wAt]
      rw [ih (i + 1) (by simp at hc ⊢; omega) _ (by simp)]
      simp only [List.map_cons, initText, default_render, linesText, repeatStr, String.append_assoc,
        String.empty_append, String.append_empty]

theorem structModel_render (n : StructNode) :
    structModel x n "" true = linesText 2 (genStructClass x n).render := by
  obtain ⟨id, fields, e, i⟩ := n
  cases fields with
  | nil =>
    simp only [structModel, List.isEmpty_nil, if_true, new_eq, writeln_wAt, writelnTab_wAt, show_wAt,
      genStructClass, StructClass.render, List.map_nil, renderFactory, String.append_empty]
    simp only [linesText_append, String.append_assoc, String.empty_append, linesText, String.append_empty]
    simp only [← String.append_assoc (s₁ := " createDefault() => ")]
    rfl
  | cons f fs =>
    have h := structDefaultInit_render x (f :: fs) (f :: fs).length 0 (by simp)
    have h' := initText_render true ((f :: fs).map (fun f => (x.camel f.name, genDef f.typeId))) (by simp)
    unfold structModel
    simp only [List.isEmpty_cons, Bool.false_eq_true, if_false, if_true, new_eq, writeln_wAt, writelnTab_wAt,
      foldl_line, writeTab_wAt, h _ (by simp), show_wAt]
    simp only [genStructClass, StructClass.render, List.map_cons, List.isEmpty_cons, Bool.false_eq_true,
      if_false, renderFactory, linesText_append, String.append_assoc, String.empty_append]
    rw [← List.map_cons (f := fun f : StructField => (x.camel f.name, genDef f.typeId)), ← h']
    simp only [typeId_render, linesText, String.append_assoc, String.append_empty, List.map_map,
      Function.comp_def, if_true, String.empty_append]

theorem enumItemFactory_render (n : EnumNode) (i : EnumItem) : enumItemFactory n i = (genNew n i).render := by
  cases i <;> simp [enumItemFactory, genNew, NewE.render, String.append_assoc]

theorem sp_v (s : String) : " v" ++ s = " " ++ ("v" ++ s) := by rw [← String.append_assoc]; rfl
theorem dot_v (s : String) : ".v" ++ s = "." ++ ("v" ++ s) := by rw [← String.append_assoc]; rfl
theorem eq_v (s : String) : " = v" ++ s = " = " ++ ("v" ++ s) := by rw [← String.append_assoc]; rfl

theorem enumTo_render (n : EnumNode) (r : String) :
    foldIdx (enumToMethod x n) 0 n.items (wAt 2 r) = wAt 2 (r ++ linesText 2
      (joinBlocks (n.items.map (fun i => (genVMethod x i).renderTo n.id)))) := by
  refine foldIdx_join 2 _ _ n.items.length n.items 0 (by simp) (fun i _ j r => ?_) r
  unfold enumToMethod
  by_cases hj : j ≠ n.items.length - 1 <;> simp only [hj, if_true, if_false, not_false_eq_true, ne_eq] <;>
  cases i <;>
  simp only [writelnTab_wAt, writeln_wAt, foldIdx_line, foldl_line, genVMethod, VMethod.renderTo, Params.render,
    List.map_map, Function.comp_def, typeId_render] <;>
  simp only [linesText_append, String.append_assoc, String.empty_append, linesText,
    String.append_empty, List.append_nil, List.cons_append, List.nil_append, sp_v, dot_v, eq_v]

theorem enumCreate_render (n : EnumNode) (r : String) :
    foldIdx (enumCreateMethod x n) 0 n.items (wAt 2 r) = wAt 2 (r ++ linesText 2
      (joinBlocks (n.items.map (fun i => (genVMethod x i).renderCreate n.id)))) := by
  refine foldIdx_join 2 _ _ n.items.length n.items 0 (by simp) (fun i _ j r => ?_) r
  unfold enumCreateMethod
  by_cases hj : j ≠ n.items.length - 1 <;> simp only [hj, if_true, if_false, not_false_eq_true, ne_eq] <;>
  cases i <;>
  simp only [writelnTab_wAt, writeln_wAt, foldIdx_line, foldl_line, genVMethod, VMethod.renderCreate,
    Params.render, List.map_map, Function.comp_def, typeId_render, List.map_nil] <;>
  simp only [linesText_append, String.append_assoc, String.empty_append, linesText,
    String.append_empty, List.append_nil, List.cons_append, List.nil_append, sp_v, dot_v, eq_v]

theorem enumClasses_render (n : EnumNode) (r : String) :
    foldIdx (enumItemClass x n) 0 n.items (wAt 2 r) = wAt 2 (r ++ linesText 2
      (joinBlocks ((genVariants x n).map StructClass.render))) := by
  rw [genVariants, List.map_map]
  refine foldIdx_join 2 _ _ n.items.length n.items 0 (by simp) (fun i _ j r => ?_) r
  unfold enumItemClass
  rw [structModel_render]
  split <;>
  simp only [write_wAt, writeln_wAt, linesText_append, String.append_assoc, List.append_nil,
    Function.comp_def]

theorem enumModel_render (n : EnumNode) (d : EnumItem) (hd : n.items.head? = some d) :
    enumModel x n = .ok (linesText 2 (ClassItem.render (.enum (genEnumClass x n d.id) (genVariants x n)))) := by
  unfold enumModel
  simp only [hd, new_eq, writeln_wAt, writelnTab_wAt, foldl_line, enumTo_render, enumCreate_render,
    enumClasses_render, show_wAt, ClassItem.render, EnumClass.render, genEnumClass, renderFactory,
    List.map_map, Function.comp_def, enumItemFactory_render, Except.ok.injEq]
  simp only [linesText_append, String.append_assoc, String.empty_append, linesText, String.append_empty]

/-- Does a blank line follow the item in the generator's loop? -/
def ClassItem.trail : ClassItem → List Line
  | .struct _ => [(0, "")]
  | .enum _ _ => []

def trailOf : List ClassItem → List Line
  | [] => []
  | [c] => c.trail
  | _ :: d :: cs => trailOf (d :: cs)

theorem items_flatMap (cs : List ClassItem) :
    cs.flatMap (fun c => c.render ++ c.trail) = renderItems cs ++ trailOf cs := by
  induction cs with
  | nil => rfl
  | cons c cs ih =>
    cases cs with
    | nil => simp [renderItems, trailOf]
    | cons d cs =>
      rw [List.flatMap_cons, ih]
      cases c <;> simp [renderItems, trailOf, ClassItem.trail, ClassItem.render]

theorem trimOnce_line (ls : List Line) (n : Nat) (s : String) (hs : ∃ cs c, s.toList = cs ++ [c] ∧ c ≠ '\n') :
    trimOnce (linesText 2 (ls ++ [(n, s)])) = linesText 2 (ls ++ [(n, s)]) := by
  obtain ⟨cs, c, h, hc⟩ := hs
  unfold trimOnce
  have e : (linesText 2 (ls ++ [(n, s)])).toList
      = (linesText 2 ls ++ repeatStr (repeatStr " " 2) n).toList ++ cs ++ [c, '\n'] := by
    rw [linesText_append]
    simp [linesText, h]
  rw [e]
  simp only [List.reverse_append, List.reverse_cons, List.reverse_nil, List.nil_append, List.cons_append]
  split
  · next heq => simp at heq; exact absurd heq.1 hc
  · rfl

theorem factory_last (id new : String) : ∃ ls, renderFactory id new = ls ++ [(0, "}")] :=
  ⟨(renderFactory id new).dropLast, by simp [renderFactory]⟩

theorem structClass_last (c : StructClass) : ∃ ls, c.render = ls ++ [(0, "}")] := by
  unfold StructClass.render
  split
  · obtain ⟨ls, e⟩ := factory_last c.id ("const " ++ c.id ++ "();")
    exact ⟨_, by rw [e, ← List.append_assoc]⟩
  · obtain ⟨ls, e⟩ := factory_last c.id (c.id ++ ".createDefault();")
    exact ⟨_, by rw [e, ← List.append_assoc]⟩

theorem joinBlocks_last (bs : List (List Line)) (h : bs ≠ []) (hb : ∀ b ∈ bs, ∃ ls, b = ls ++ [(0, "}")]) :
    ∃ ls, joinBlocks bs = ls ++ [(0, "}")] := by
  match bs with
  | [] => exact absurd rfl h
  | [b] => exact hb b (by simp)
  | b :: c :: bs =>
    obtain ⟨ls, e⟩ := joinBlocks_last (c :: bs) (by simp) (fun d hd => hb d (List.mem_cons_of_mem _ hd))
    exact ⟨b ++ (0, "") :: ls, by simp [joinBlocks, e]⟩

theorem renderItems_last (cs : List ClassItem) (h : cs ≠ []) (hv : ∀ c vs, .enum c vs ∈ cs → vs ≠ []) :
    ∃ ls, renderItems cs = ls ++ [(0, "}")] := by
  match cs with
  | [] => exact absurd rfl h
  | [.struct c] => exact structClass_last c
  | [.enum c vs] =>
    obtain ⟨ls, e⟩ := joinBlocks_last (vs.map StructClass.render) (by simpa using hv c vs (by simp)) (by
      intro b hb; obtain ⟨v, _, rfl⟩ := List.mem_map.1 hb; exact structClass_last v)
    exact ⟨c.render ++ [(0, "")] ++ ls, by simp [renderItems, ClassItem.render, e]⟩
  | .struct c :: d :: cs =>
    obtain ⟨ls, e⟩ := renderItems_last (d :: cs) (by simp) (fun c vs h => hv c vs (List.mem_cons_of_mem _ h))
    exact ⟨c.render ++ (0, "") :: ls, by simp [renderItems, e]⟩
  | .enum c vs :: d :: cs =>
    obtain ⟨ls, e⟩ := renderItems_last (d :: cs) (by simp) (fun c vs h => hv c vs (List.mem_cons_of_mem _ h))
    exact ⟨(ClassItem.enum c vs).render ++ ls, by simp [renderItems, e]⟩

theorem trim_items (cs : List ClassItem) (hv : ∀ c vs, .enum c vs ∈ cs → vs ≠ []) :
    trimOnce (linesText 2 (cs.flatMap (fun c => c.render ++ c.trail))) = linesText 2 (renderItems cs) := by
  rw [items_flatMap]
  cases hc : cs with
  | nil => rfl
  | cons c cs' =>
    rw [← hc]
    obtain ⟨ls, e⟩ := renderItems_last cs (by simp [hc]) hv
    have ht : trailOf cs = [] ∨ trailOf cs = [(0, "")] := by
      clear hv e hc
      induction cs with
      | nil => simp [trailOf]
      | cons c cs ih =>
        cases cs with
        | nil => cases c <;> simp [trailOf, ClassItem.trail]
        | cons d cs => simpa [trailOf] using ih
    rcases ht with ht | ht
    · rw [ht, e, List.append_nil]
      exact trimOnce_line ls 0 "}" ⟨[], '}', rfl, by decide⟩
    · rw [ht, trimOnce_blank]
      simp [e]

/-- The models section is the text of the items. -/
theorem models_render (S : List ASTNode) (k : Nat) (hs : ∀ d ∈ S, WFDecl k d ∨ ∃ f, d = .fn f) :
    models x S = .ok (linesText 2 (renderItems (genItems x S))) := by
  have h : loopM (modelsItem x) S (wAt 2 "") = .ok (wAt 2 ("" ++ linesText 2
      (S.flatMap (fun d => (genItems x [d]).flatMap (fun c => c.render ++ c.trail))))) := by
    refine loopM_wAt 2 _ _ _ (fun d hd r => ?_) ""
    cases d with
    | struct n =>
      simp only [modelsItem, structModel_render, writeln_wAt, writeln_block]
      simp [genItems, ClassItem.render, ClassItem.trail]
    | enum n =>
      rcases hs _ hd with h | ⟨f, hf⟩
      · cases hi : n.items with
        | nil => exact absurd hi h.1
        | cons i is =>
          have he : n.items.head? = some i := by simp [hi]
          simp only [modelsItem, enumModel_render x n i he, write_wAt]
          simp [genItems, he, ClassItem.trail]
      · exact absurd hf (by simp)
    | fn _ => simp [modelsItem, genItems, linesText]
    | const _ => simp [modelsItem, genItems, linesText]
    | directive _ => simp [modelsItem, genItems, linesText]
  have e : S.flatMap (fun d => (genItems x [d]).flatMap (fun c => c.render ++ c.trail))
      = (genItems x S).flatMap (fun c => c.render ++ c.trail) := by
    clear h hs
    induction S with
    | nil => rfl
    | cons d S ih =>
      have : genItems x (d :: S) = genItems x [d] ++ genItems x S := by
        unfold genItems
        rw [← List.filterMap_append]; rfl
      rw [List.flatMap_cons, ih, this, List.flatMap_append]
  have hv : ∀ c vs, .enum c vs ∈ genItems x S → vs ≠ [] := by
    intro c vs hc
    obtain ⟨d, hd, hc⟩ := List.mem_filterMap.1 hc
    cases d with
    | enum n =>
      simp only [Option.map_eq_some_iff] at hc
      obtain ⟨i, hi, he⟩ := hc
      simp at he
      rw [← he.2]
      simp only [genVariants, ne_eq, List.map_eq_nil_iff]
      intro h; rw [h] at hi; simp at hi
    | struct n => simp at hc
    | fn _ => simp at hc
    | const _ => simp at hc
    | directive _ => simp at hc
  unfold models
  rw [new_eq, h]
  simp only [show_wAt, String.empty_append]
  rw [e, trim_items _ hv]

end TPB.Dart
