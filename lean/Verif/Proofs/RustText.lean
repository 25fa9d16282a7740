/- The text of the Rust generator is the printed form of the trees of `Sem/RustIR.lean`. -/
import Verif.Sem.RustIR
namespace TPB.Rust

theorem joinStr_congr {α : Type} (f g : α → String) (xs : List α) (h : ∀ x ∈ xs, f x = g x) :
    joinStr ", " (xs.map f) = joinStr ", " (xs.map g) := by
  rw [List.map_congr_left h]

theorem typeId_render (t : TypeId) : RustGen.typeId t = (genTy t).render := by
  match t with
  | .integer _ _ _ | .number _ _ | .bool _ | .char _ | .other _ =>
    simp [RustGen.typeId, genTy, Ty.render]
  | .generic id gs =>
    simp only [RustGen.typeId, genTy, genTys_eq, Ty.render, List.map_map]
    rw [List.map_congr_left (fun x hx => typeId_render x)]
    rfl
termination_by sizeOf t

theorem read_render (t : TypeId) : RustGen.read t = (genRead t).render := by
  cases t with
  | generic id gs =>
    have h : gs.map RustGen.typeId = (gs.map genTy).map Ty.render := by
      rw [List.map_map]; exact List.map_congr_left (fun x _ => typeId_render x)
    unfold RustGen.read genRead ReadE.render
    dsimp only
    rw [h]
  | integer _ _ _ => unfold RustGen.read genRead ReadE.render; rfl
  | number _ _ => unfold RustGen.read genRead ReadE.render; rfl
  | bool _ => unfold RustGen.read genRead ReadE.render; rfl
  | char _ => unfold RustGen.read genRead ReadE.render; rfl
  | other _ => unfold RustGen.read genRead ReadE.render; rfl

theorem write_render_field (t : TypeId) (n : String) :
    RustGen.write t ("self." ++ n) false = (genWrite t (.field n)).render := by
  cases t <;> (unfold RustGen.write genWrite WriteS.render; rfl)

theorem write_render_var (t : TypeId) (n : String) :
    RustGen.write t n true = (genWrite t (.var n)).render := by
  cases t <;> (unfold RustGen.write genWrite WriteS.render; rfl)

theorem write_render_tag (p : Nat) :
    RustGen.write u32TypeId (toString p) false = (tagWrite p).render := by
  unfold RustGen.write tagWrite genWrite WriteS.render u32TypeId; rfl

theorem structBuffers_render (n : StructNode) :
    RustGen.structBuffers n = linesText 4 (genStructImpl n).render := by
  obtain ⟨id, fields, e, i⟩ := n
  cases fields with
  | nil =>
    simp only [RustGen.structBuffers, RustGen.structRead, RustGen.structWrite, RustGen.structSkip,
      List.isEmpty_nil, if_true, default_eq, writeln_wAt, writelnTab_wAt, write_wAt, show_wAt,
      genStructImpl, Impl.render, ReadBody.render, WriteBody.render, SkipBody.render]
    simp only [linesText_append, String.append_assoc, String.empty_append, linesText, String.append_empty]
  | cons f fs =>
    simp only [RustGen.structBuffers, RustGen.structRead, RustGen.structWrite, RustGen.structSkip,
      List.isEmpty_cons, default_eq, writeln_wAt, writelnTab_wAt, write_wAt, show_wAt, foldl_line,
      genStructImpl, Impl.render, ReadBody.render, WriteBody.render, SkipBody.render, read_render,
      write_render_field, Bool.false_eq_true, if_false, List.map_map, Function.comp_def,
      readHeader, writeHeader, skipHeader]
    simp only [linesText_append, String.append_assoc, String.empty_append, linesText, String.append_empty]

theorem enumBuffers_render (n : EnumNode) :
    RustGen.enumBuffers n = linesText 4 (genEnumImpl n).render := by
  have hr : ∀ r x, RustGen.enumReadItem n.id (wAt 4 r) x
      = wAt 4 (r ++ linesText 4 (renderReadArm n.id (genReadArm x))) := by
    intro r x
    cases x <;>
    simp only [RustGen.enumReadItem, writelnTab_wAt, foldl_line, read_render, renderReadArm, genReadArm,
      List.map_map, Function.comp_def, linesText_append, String.append_assoc]
  have hw : ∀ r x, RustGen.enumWriteItem n.id (wAt 4 r) x
      = wAt 4 (r ++ linesText 4 (renderWriteArm n.id (genWriteArm x))) := by
    intro r x
    cases x <;>
    simp only [RustGen.enumWriteItem, writelnTab_wAt, foldl_line, foldIdx_line, renderWriteArm,
      genWriteArm, List.map_map, Function.comp_def, linesText_append, String.append_assoc,
      write_render_tag, write_render_var, List.map_cons, List.map_nil, linesText, String.append_empty]
  have hs : ∀ r x, RustGen.enumSkipItem (wAt 4 r) x
      = wAt 4 (r ++ linesText 4 (renderSkipArm (genSkipArm x))) := by
    intro r x
    cases x <;>
    simp only [RustGen.enumSkipItem, writelnTab_wAt, foldl_line, read_render, renderSkipArm, genSkipArm,
      List.map_map, Function.comp_def, linesText_append, String.append_assoc]
  simp only [RustGen.enumBuffers, RustGen.enumRead, RustGen.enumWrite, RustGen.enumSkip, default_eq,
    writeln_wAt, writelnTab_wAt, write_wAt, show_wAt, foldl_wAt 4 _ _ hr, foldl_wAt 4 _ _ hw,
    foldl_wAt 4 _ _ hs, genEnumImpl, Impl.render, ReadBody.render, WriteBody.render, SkipBody.render,
    read_render, List.flatMap_map, readHeader, writeHeader, skipHeader, unsupported]
  simp only [linesText_append, String.append_assoc, String.empty_append, linesText, String.append_empty]

theorem structParameters_render (t : Nat) (p : Bool) (fs : List StructField) :
    RustGen.structParameters t p fs = linesText 4 (fs.map (fun f =>
      (t, (if p then "pub " else "") ++ (f.name ++ ": " ++ (genTy f.typeId).render ++ ",")))) := by
  unfold RustGen.structParameters
  rw [default_eq]
  cases p <;>
  simp only [Bool.false_eq_true, if_false, if_true, foldl_line, show_wAt, typeId_render, String.empty_append,
    String.append_assoc]

theorem default_render (t : TypeId) : RustGen.defaultConst t = (genDef t).render := by
  cases t with
  | generic id gs =>
    have h : gs.map RustGen.typeId = (gs.map genTy).map Ty.render := by
      rw [List.map_map]; exact List.map_congr_left (fun x _ => typeId_render x)
    unfold RustGen.defaultConst genDef DefE.render
    dsimp only
    rw [h]
  | integer _ _ _ => unfold RustGen.defaultConst genDef DefE.render; rfl
  | number _ _ => unfold RustGen.defaultConst genDef DefE.render; rfl
  | bool _ => unfold RustGen.defaultConst genDef DefE.render; rfl
  | char _ => unfold RustGen.defaultConst genDef DefE.render; rfl
  | other _ => unfold RustGen.defaultConst genDef DefE.render; rfl

theorem structModel_render (n : StructNode) (h : n.fields = []) :
    RustGen.structModel n true = linesText 4 (genStructItem n).render := by
  unfold RustGen.structModel
  simp only [h, List.isEmpty_nil, if_true, default_eq, writeln_wAt, writelnTab_wAt, show_wAt,
    genStructItem, genStructDecl, TypeItem.render, Decl.render, DefBody.render, List.map_nil, Decl.id]
  simp only [linesText_append, String.append_assoc, String.empty_append, linesText, String.append_empty]

/-- A struct with fields: the text has one more blank line than the item. -/
theorem structModel_render' (n : StructNode) (h : n.fields ≠ []) :
    RustGen.structModel n true = linesText 4 (genStructItem n).render := by
  unfold RustGen.structModel
  have h1 : n.fields.isEmpty = false := by simpa using h
  obtain ⟨id, fields, e, i⟩ := n
  cases fields with
  | nil => exact absurd rfl h
  | cons f fs =>
    simp only [RustGen.structDefault, h1, Bool.false_eq_true, if_false, if_true, default_eq, writeln_wAt, writelnTab_wAt,
      write_wAt, show_wAt, genStructItem, genStructDecl, TypeItem.render, Decl.render, DefBody.render,
      Decl.id, structParameters_render, foldl_line, default_render, List.map_cons, List.map_map,
      Function.comp_def]
    simp only [linesText_append, String.append_assoc, String.empty_append, linesText, String.append_empty,
      List.cons_append, List.nil_append, repeatStr]

theorem tupleParameters_render (t : Nat) (vs : List TupleField) :
    RustGen.tupleParameters t vs = linesText 4 (vs.map (fun v => (t, (genTy v.typeId).render ++ ","))) := by
  unfold RustGen.tupleParameters
  simp only [default_eq, foldl_line, show_wAt, typeId_render, String.empty_append]

theorem enumModel_render (n : EnumNode) (i : EnumItem) (h : n.items.head? = some i) :
    RustGen.enumModel n = .ok (linesText 4 (TypeItem.render ⟨genEnumDecl n, genEnumDefault i⟩)) := by
  have hm : ∀ r x, RustGen.enumModelItem (wAt 4 r) x
      = wAt 4 (r ++ linesText 4 ((genVariant x).2.renderDecl (genVariant x).1)) := by
    intro r x
    cases x <;>
    simp only [RustGen.enumModelItem, writelnTab_wAt, write_wAt, tupleParameters_render,
      structParameters_render, genVariant, Payload.renderDecl, List.map_map, Function.comp_def,
      linesText_append, String.append_assoc, Bool.false_eq_true, if_false, String.empty_append]
  have hd : ∀ r, RustGen.enumDefaultItem (wAt 4 r) i
      = wAt 4 (r ++ linesText 4 (genEnumDefault i).render) := by
    intro r
    cases i <;>
    simp only [RustGen.enumDefaultItem, writelnTab_wAt, foldl_line, default_render, genEnumDefault,
      DefBody.render, List.map_map, Function.comp_def, linesText_append, String.append_assoc]
  unfold RustGen.enumModel
  simp only [h, default_eq, writeln_wAt, writelnTab_wAt, show_wAt, foldl_wAt 4 _ _ hm, hd,
    TypeItem.render, genEnumDecl, Decl.render, Decl.id, List.flatMap_map]
  simp only [linesText_append, String.append_assoc, String.empty_append, linesText, String.append_empty]

theorem Impl.render_ne_nil (i : Impl) : i.render ≠ [] := by simp [Impl.render]
theorem TypeItem.render_ne_nil (i : TypeItem) : i.render ≠ [] := by simp [TypeItem.render]

/-- The buffers section is the printed form of the `impl` blocks, separated by blank lines. -/
theorem buffers_render (S : List ASTNode) :
    RustGen.buffers S = linesText 4 (joinBlocks ((genImpls S).map Impl.render)) := by
  have h : ∀ r x, RustGen.buffersItem (wAt 4 r) x = wAt 4 (r ++ linesText 4 (match x with
      | .struct n => (genStructImpl n).render ++ [(0, "")]
      | .enum n => (genEnumImpl n).render ++ [(0, "")]
      | _ => [])) := by
    intro r x
    cases x with
    | struct n => simp only [RustGen.buffersItem, writeln_wAt, structBuffers_render, writeln_block]
    | enum n => simp only [RustGen.buffersItem, writeln_wAt, enumBuffers_render, writeln_block]
    | _ => simp [RustGen.buffersItem, linesText]
  unfold RustGen.buffers
  rw [default_eq, foldl_wAt 4 _ _ h, show_wAt, String.empty_append]
  rw [← trimOnce_blocks 4 _ (by
    intro b hb
    obtain ⟨i, -, rfl⟩ := List.mem_map.1 hb
    exact Impl.render_ne_nil i)]
  congr 2
  rw [List.flatMap_map, genImpls]
  induction S with
  | nil => rfl
  | cons d S ih => cases d <;> simp [ih]

/-- The models section is the printed form of the type items, separated by blank lines. -/
theorem models_render (S : List ASTNode) (hS : ∀ n, .enum n ∈ S → n.items ≠ []) :
    RustGen.models S = .ok (linesText 4 (joinBlocks ((genItems S).map TypeItem.render))) := by
  have h : ∀ (S : List ASTNode) r, (∀ n, .enum n ∈ S → n.items ≠ []) →
      RustGen.modelsLoop (wAt 4 r) S = .ok (wAt 4 (r ++ linesText 4
        (((genItems S).map TypeItem.render).flatMap (fun b => b ++ [(0, "")])))) := by
    intro S
    induction S with
    | nil => intro r _; simp [RustGen.modelsLoop, genItems, linesText]
    | cons d S ih =>
      intro r hS
      have hS' : ∀ n, .enum n ∈ S → n.items ≠ [] := fun n hn => hS n (by simp [hn])
      cases d with
      | struct n =>
        have e : RustGen.structModel n true = linesText 4 (genStructItem n).render := by
          by_cases hf : n.fields = []
          · exact structModel_render n hf
          · exact structModel_render' n hf
        rw [RustGen.modelsLoop, writeln_wAt, e, writeln_block, ih _ hS']
        simp [genItems, linesText_append, String.append_assoc, linesText]
      | enum n =>
        have hne := hS n (by simp)
        cases hi : n.items with
        | nil => exact absurd hi hne
        | cons i is =>
          have hh : n.items.head? = some i := by simp [hi]
          rw [RustGen.modelsLoop, enumModel_render n i hh]
          simp only
          rw [writeln_wAt, writeln_block, ih _ hS']
          simp [genItems, hh, linesText_append, String.append_assoc, linesText]
      | _ => simp only [RustGen.modelsLoop]; rw [ih _ hS']; simp [genItems]
  unfold RustGen.models
  rw [default_eq, h S "" hS]
  simp only [show_wAt, String.empty_append]
  rw [trimOnce_blocks 4 _ (by
    intro b hb
    obtain ⟨i, -, rfl⟩ := List.mem_map.1 hb
    exact TypeItem.render_ne_nil i)]

end TPB.Rust
