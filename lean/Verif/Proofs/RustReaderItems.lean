/- The reader of `Spec/RustReader.lean` finds the declarations and `impl` blocks whose text it is given. -/
import Verif.Proofs.RustReader
namespace TPB.Spec.RustReader
open Rust Pieces

/-! ### Lists of items -/

def FirstWord (ts : List Tok) : Prop := ∃ w q, ts = .word w :: q

theorem ty_first (t : Ty) : FirstWord (tyToks t) := by
  cases t with
  | named id => rw [tyToks]; exact ⟨_, _, rfl⟩
  | app id as => rw [tyToks]; exact ⟨_, _, rfl⟩

theorem path_first (t : Ty) : FirstWord (pathToks t) := by
  cases t <;> exact ⟨_, _, rfl⟩

theorem FirstWord.append {a : List Tok} (h : FirstWord a) (b : List Tok) : FirstWord (a ++ b) := by
  obtain ⟨w, q, rfl⟩ := h
  exact ⟨w, q ++ b, rfl⟩

theorem FirstWord.stop {a : List Tok} (h : FirstWord a) (c : Char) : ∃ t ts, a = t :: ts ∧ t ≠ .sym c := by
  obtain ⟨w, q, rfl⟩ := h
  exact ⟨_, _, rfl, by simp⟩

theorem read_first (e : ReadE) : FirstWord (readToks e) := by
  cases e with
  | prim m => exact ⟨"bytes_reader", _, by rw [readToks, code_bytesReader]; rfl⟩
  | path t => exact (path_first t).append _

theorem write_first (s : WriteS) : FirstWord (writeToks s) := by
  cases s with
  | prim m a => exact ⟨"bytes_writer", _, by rw [writeToks, code_bytesWriter]; rfl⟩
  | call a =>
    rw [writeToks]
    refine FirstWord.append ?_ _
    cases a with
    | field n => exact ⟨"self", _, by rw [placeToks, code_selfDot]; rfl⟩
    | var n => exact ⟨_, _, rfl⟩
    | lit k => exact ⟨_, _, rfl⟩

theorem def_first (e : DefE) : FirstWord (defToks e) := by
  cases e with
  | call t => exact (path_first t).append _
  | _ => exact ⟨_, _, rfl⟩

/-- `item` reads `f a` as `a`. -/
def Rd {α : Type} (item : Reader α) (f : α → List Tok) (a : α) : Prop :=
  FirstWord (f a) ∧ ∀ r, NoArgs r → item (f a ++ r) = some (a, r)

theorem rd_ty {t : Ty} (h : LegTy t) : Rd anyTy tyToks t := ⟨ty_first t, fun _ hr => anyTy_ok h hr⟩
theorem rd_read {e : ReadE} (h : LegRead e) : Rd readE readToks e := ⟨read_first e, fun r _ => readE_ok h r⟩
theorem rd_def {e : DefE} (h : LegDef e) : Rd defE defToks e := ⟨def_first e, fun r _ => defE_ok h r⟩

theorem noArgs_sym (c : Char) (hc : c ≠ '<') (r : List Tok) : NoArgs (.sym c :: r) := by
  intro q h
  simp only [List.cons.injEq, Tok.sym.injEq] at h
  exact hc h.1

theorem item_ok {α : Type} {item : Reader α} {f : α → List Tok} {a : α} (h : Rd item f a) (c : Char)
    (hc : c ≠ '<') (s : String) (hs : code s = [.sym c]) (r : List Tok) :
    before (code s) item (f a ++ [.sym c] ++ r) = some (a, r) := by
  refine before_ok ?_
  rw [hs, List.append_assoc]
  exact h.2 _ (noArgs_sym c hc r)

theorem named_ok {α : Type} {item : Reader α} {f : α → List Tok} {x : String × α} (hn : RustName x.1)
    (h : Rd item f x.2) (r : List Tok) : named item (namedToks f x ++ r) = some (x, r) := by
  rw [named, namedToks]
  simp only [List.cons_append]
  rw [before_ok (a := x.1) (r := f x.2 ++ [.sym ','] ++ r) (by rw [name_ok hn]; simp)]
  simp only
  rw [item_ok h ',' (by decide) "," (by simp)]

/-- The next piece does not open parentheses or braces. -/
def Closed (r : List Tok) : Prop := ∀ q, r ≠ .sym '(' :: q ∧ r ≠ .sym '{' :: q

theorem payload_ok {α : Type} {item : Reader α} {f : α → List Tok} {p : Payload α}
    (h : LegPayload (Rd item f) p) {r : List Tok} (hr : Closed r) :
    payload item (payloadToks f p ++ r) = some (p, r) := by
  cases p with
  | unit =>
    rw [payloadToks, List.nil_append]
    unfold payload
    split
    · exact absurd rfl (hr _).1
    · exact absurd rfl (hr _).2
    · rfl
  | tuple xs =>
    rw [payloadToks, List.cons_append, List.append_assoc, List.singleton_append, payload,
      upTo_ok (fun a => f a ++ [.sym ',']) r xs
        (fun a ha r => item_ok (h a ha) ',' (by decide) "," (by simp) r)
        (fun a ha => ((h a ha).1.append _).stop ')')]
    rfl
  | named xs =>
    rw [payloadToks, List.cons_append, List.append_assoc, List.singleton_append, payload,
      upTo_ok (namedToks f) r xs (fun x hx r => named_ok (h x hx).1 (h x hx).2 r)
        (fun x hx => ⟨.word x.1, _, rfl, by simp⟩)]
    rfl

theorem LegPayload.mono {α : Type} {L M : α → Prop} (hLM : ∀ a, L a → M a) {p : Payload α} (h : LegPayload L p) :
    LegPayload M p := by
  cases p with
  | unit => trivial
  | tuple xs => exact fun a ha => hLM a (h a ha)
  | named xs => exact fun x hx => ⟨(h x hx).1, hLM _ (h x hx).2⟩

theorem closed_sym (c : Char) (h1 : c ≠ '(') (h2 : c ≠ '{') (r : List Tok) : Closed (.sym c :: r) := by
  intro q
  simp only [ne_eq, List.cons.injEq, Tok.sym.injEq, not_and]
  exact ⟨fun h => absurd h h1, fun h => absurd h h2⟩

/-! ### Lines -/

theorem line_item (n : Nat) {s : String} {ts : List Tok} (h : Piece s.toList ts ∧ noNL ts) :
    Lexes [(n, s ++ ",")] (ts ++ [.sym ',']) :=
  Lexes.line n [.p s ts, .k ","] ⟨h.1, h.2, by simp only [begins]; decide, by simp, trivial⟩
    (by simp only [segsText, Seg.text, String.append_empty]) (by simp [segsToks, Seg.toks])

theorem line_stmt (n : Nat) {s : String} {ts : List Tok} (h : Piece s.toList ts ∧ noNL ts) :
    Lexes [(n, s ++ ";")] (ts ++ [.sym ';']) :=
  Lexes.line n [.p s ts, .k ";"] ⟨h.1, h.2, by simp only [begins]; decide, by simp, trivial⟩
    (by simp only [segsText, Seg.text, String.append_empty]) (by simp [segsToks, Seg.toks])

theorem line_named {α : Type} (n : Nat) {f : α → List Tok} {x : String × α} {s : String} (hn : RustName x.1)
    (h : Piece s.toList (f x.2) ∧ noNL (f x.2)) : Lexes [(n, x.1 ++ ": " ++ s ++ ",")] (namedToks f x) :=
  Lexes.line n [.w x.1, .k ": ", .p s (f x.2), .k ","]
    ⟨hn.1, by simp only [begins]; decide, by simp, h.1, h.2, by simp only [begins]; decide, by simp, trivial⟩
    (by simp only [segsText, Seg.text, String.append_empty, String.append_assoc])
    (by simp [segsToks, Seg.toks, namedToks])

/-! ### Declarations -/

def fieldToks (x : String × Ty) : List Tok := .word "pub" :: namedToks tyToks x

def variantToks (v : String × Payload Ty) : List Tok := .word v.1 :: (payloadToks tyToks v.2 ++ [.sym ','])

def deriveToks : List Tok := code "#[derive(Debug, Clone, PartialEq)] pub"

def declToks : Decl → List Tok
  | .struct id [] => deriveToks ++ [.word "struct", .word id, .sym ';']
  | .struct id fs => deriveToks ++ .word "struct" :: .word id :: .sym '{' :: (fs.flatMap fieldToks ++ [.sym '}'])
  | .enum id vs => deriveToks ++ .word "enum" :: .word id :: .sym '{' :: (vs.flatMap variantToks ++ [.sym '}'])

def LegDecl : Decl → Prop
  | .struct id fs => RustName id ∧ ∀ f ∈ fs, RustName f.1 ∧ LegTy f.2
  | .enum id vs => RustName id ∧ ∀ v ∈ vs, RustName v.1 ∧ LegPayload LegTy v.2

theorem field_ok {x : String × Ty} (hn : RustName x.1) (ht : LegTy x.2) (r : List Tok) :
    field (fieldToks x ++ r) = some (x, r) := by
  have := named_ok hn (rd_ty ht) r
  simp [field, fieldToks, eat, this]

theorem variant_ok {v : String × Payload Ty} (hn : RustName v.1) (hp : LegPayload LegTy v.2) (r : List Tok) :
    variant (variantToks v ++ r) = some (v, r) := by
  have h := payload_ok (hp.mono (fun _ => rd_ty)) (closed_sym ',' (by decide) (by decide) r)
  rw [variant, variantToks, List.cons_append, name_ok hn]
  simp only [List.append_assoc, List.singleton_append]
  rw [before_ok (a := v.2) (r := r) (by simpa using h)]
  rfl

theorem decl_ok {d : Decl} (h : LegDecl d) (r : List Tok) : decl (declToks d ++ r) = some (d, r) := by
  match d, h with
  | .struct id [], h =>
    rw [decl, declToks, deriveToks, List.append_assoc, eat_ok]
    simp [name_ok h.1]
  | .struct id (f :: fs), h =>
    have hu := upTo_ok (stop := '}') fieldToks r (f :: fs) (fun x hx r => field_ok (h.2 x hx).1 (h.2 x hx).2 r)
      (fun x _ => ⟨.word "pub", _, rfl, by simp⟩)
    rw [decl, declToks, deriveToks, List.append_assoc, eat_ok]
    · simp only [List.cons_append, name_ok h.1, List.append_assoc, List.nil_append, hu]
    · simp
  | .enum id vs, h =>
    have hu := upTo_ok (stop := '}') variantToks r vs (fun x hx r => variant_ok (h.2 x hx).1 (h.2 x hx).2 r)
      (fun x _ => ⟨.word x.1, _, rfl, by simp⟩)
    rw [decl, declToks, deriveToks, List.append_assoc, eat_ok]
    simp only [List.cons_append, List.append_assoc, List.nil_append]
    rw [before_ok (a := id) (r := vs.flatMap variantToks ++ .sym '}' :: r) (by rw [name_ok h.1]; simp)]
    simp only [hu, Option.map_some]

theorem variant_lines {v : String × Payload Ty} (hn : RustName v.1) (hp : LegPayload LegTy v.2) :
    Lexes (v.2.renderDecl v.1) (variantToks v) := by
  obtain ⟨v, p⟩ := v
  match p, hp with
  | .unit, _ =>
    exact (line_start 1 v "," hn.1 (by simp) (by decide)).of_eq (by simp [variantToks, payloadToks])
  | .tuple ts, hp =>
    refine Lexes.of_eq (((line_start 1 v "(" hn.1 (by simp) (by decide)).append
      (Lexes.map ts (fun t => (2, t.render ++ ",")) (fun t => tyToks t ++ [.sym ','])
        (fun t ht => line_item 2 (ty_piece t (hp t ht))))).append (line_k 1 ")," (by simp))) ?_
    simp [variantToks, payloadToks]
  | .named fs, hp =>
    refine Lexes.of_eq (((line_start 1 v " {" hn.1 (by simp) (by decide)).append
      (Lexes.map fs (fun f => (2, f.1 ++ ": " ++ f.2.render ++ ",")) (namedToks tyToks)
        (fun f hf => line_named 2 (hp f hf).1 (ty_piece f.2 (hp f hf).2)))).append (line_k 1 "}," (by simp))) ?_
    simp [variantToks, payloadToks]

theorem field_line {x : String × Ty} (hn : RustName x.1) (ht : LegTy x.2) :
    Lexes [(1, "pub " ++ x.1 ++ ": " ++ x.2.render ++ ",")] (fieldToks x) := by
  obtain ⟨h1, h2⟩ := ty_piece x.2 ht
  exact Lexes.line 1 [.k "pub ", .w x.1, .k ": ", .p x.2.render (tyToks x.2), .k ","]
    ⟨by simp, hn.1, by simp only [begins]; decide, by simp, h1, h2, by simp only [begins]; decide, by simp, trivial⟩
    (by simp only [segsText, Seg.text, String.append_empty, String.append_assoc])
    (by simp [segsToks, Seg.toks, namedToks, fieldToks])

theorem decl_lines {d : Decl} (h : LegDecl d) : Lexes d.render (declToks d) := by
  have hd := line_k 0 "#[derive(Debug, Clone, PartialEq)]" (by simp)
  match d, h with
  | .struct id [], h =>
    exact (hd.append (line_name 0 "pub struct " id ";" h.1.1 (by simp) (by simp) (by decide))).of_eq
      (by simp [declToks, deriveToks])
  | .struct id (f :: fs), h =>
    exact ((hd.append (line_name 0 "pub struct " id " {" h.1.1 (by simp) (by simp) (by decide))).append
      (Lexes.map (f :: fs) _ fieldToks (fun x hx => field_line (h.2 x hx).1 (h.2 x hx).2)) |>.append
      (line_k 0 "}" (by simp))).of_eq (by simp [declToks, deriveToks])
  | .enum id vs, h =>
    exact ((hd.append (line_name 0 "pub enum " id " {" h.1.1 (by simp) (by simp) (by decide))).append
      (Lexes.flatMap vs _ variantToks (fun x hx => variant_lines (h.2 x hx).1 (h.2 x hx).2)) |>.append
      (line_k 0 "}" (by simp))).of_eq (by simp [declToks, deriveToks])

/-! ### `impl Default` -/

def defBodyToks : DefBody → List Tok
  | .unit => [.word "Self"]
  | .selfLit fs => .word "Self" :: .sym '{' :: (fs.flatMap (namedToks defToks) ++ [.sym '}'])
  | .variant v p => .word "Self" :: .sym ':' :: .sym ':' :: .word v :: payloadToks defToks p

def LegDefBody : DefBody → Prop
  | .unit => True
  | .selfLit fs => ∀ f ∈ fs, RustName f.1 ∧ LegDef f.2
  | .variant v p => RustName v ∧ LegPayload LegDef p

theorem defBody_ok {b : DefBody} (h : LegDefBody b) (r : List Tok) :
    defBody (defBodyToks b ++ .sym '}' :: r) = some (b, .sym '}' :: r) := by
  match b, h with
  | .unit, _ => simp [defBody, defBodyToks, eat]
  | .selfLit fs, h =>
    have hu := upTo_ok (stop := '}') (namedToks defToks) (.sym '}' :: r) fs
      (fun x hx r => named_ok (h x hx).1 (rd_def (h x hx).2) r) (fun x _ => ⟨.word x.1, _, rfl, by simp⟩)
    simp only [defBody, defBodyToks, code_self, List.cons_append, eat, if_true, List.append_assoc, List.nil_append, hu,
      Option.map_some]
  | .variant v p, h =>
    have hp := payload_ok (h.2.mono (fun _ => rd_def)) (closed_sym '}' (by decide) (by decide) r)
    simp only [defBody, defBodyToks, code_self, List.cons_append, eat, if_true, name_ok h.1, hp, Option.map_some]

theorem defBody_lines {b : DefBody} (h : LegDefBody b) : Lexes b.render (defBodyToks b) := by
  match b, h with
  | .unit, _ => exact line_piece 2 ⟨piece_ident "Self" (by decide), noNL_word _⟩
  | .selfLit fs, h =>
    exact (((line_k 2 "Self {" (by simp)).append (Lexes.map fs _ (namedToks defToks)
      (fun f hf => line_named 3 (h f hf).1 (def_piece (h f hf).2)))).append (line_k 2 "}" (by simp))).of_eq
      (by simp [defBodyToks])
  | .variant v .unit, h =>
    exact (Lexes.line 2 [.k "Self::", .w v] ⟨by simp, h.1.1, rfl, trivial⟩
      (by simp only [segsText, Seg.text, String.append_empty]) rfl).of_eq
      (by simp [segsToks, Seg.toks, defBodyToks, payloadToks])
  | .variant v (.tuple es), h =>
    exact (((line_name 2 "Self::" v "(" h.1.1 (by simp) (by simp) (by decide)).append
      (Lexes.map es _ (fun e => defToks e ++ [.sym ',']) (fun e he => line_item 3 (def_piece (h.2 e he))))).append
      (line_k 2 ")" (by simp))).of_eq (by simp [defBodyToks, payloadToks])
  | .variant v (.named fs), h =>
    exact (((line_name 2 "Self::" v " {" h.1.1 (by simp) (by simp) (by decide)).append
      (Lexes.map fs _ (namedToks defToks) (fun f hf => line_named 3 (h.2 f hf).1 (def_piece (h.2 f hf).2)))).append
      (line_k 2 "}" (by simp))).of_eq (by simp [defBodyToks, payloadToks])

def itemToks (i : TypeItem) : List Tok :=
  declToks i.decl ++ (code "impl Default for" ++ .word i.decl.id :: code "{ fn default() -> Self {")
    ++ defBodyToks i.default ++ code "} }"

def LegItem (i : TypeItem) : Prop := LegDecl i.decl ∧ LegDefBody i.default

theorem decl_id {d : Decl} (h : LegDecl d) : RustName d.id := by
  cases d with
  | struct => exact h.1
  | enum => exact h.1

theorem item_lines {i : TypeItem} (h : LegItem i) : Lexes i.render (itemToks i) := by
  have h1 := decl_lines h.1
  have h2 := line_name 0 "impl Default for " i.decl.id " {" (decl_id h.1).1 (by simp) (by simp) (by decide)
  have h3 := line_k 1 "fn default() -> Self {" (by simp)
  have h4 := defBody_lines h.2
  have h5 := (line_k 1 "}" (by simp)).append (line_k 0 "}" (by simp))
  have := (h1.append (Lexes.blank.append (h2.append h3))).append h4 |>.append h5
  exact this.of_eq (by simp [itemToks])

theorem typeItem_ok {i : TypeItem} (h : LegItem i) (r : List Tok) : typeItem (itemToks i ++ r) = some (i, r) := by
  rw [typeItem, itemToks]
  simp only [List.append_assoc]
  rw [decl_ok h.1]
  simp only
  rw [← List.append_assoc, ← List.append_assoc, List.append_assoc (code _ ++ _), eat_ok]
  simp only
  rw [before_ok (a := i.default) (r := r) (by simpa using defBody_ok h.2 (.sym '}' :: r))]
  rfl

theorem item_first (i : TypeItem) : ∃ t ts, itemToks i = t :: ts := by
  obtain ⟨d, b⟩ := i
  refine ⟨.sym '#', ?_⟩
  match d with
  | .struct id [] => exact ⟨_, by simp only [itemToks, declToks, deriveToks, code_derive, List.cons_append]; rfl⟩
  | .struct id (f :: fs) =>
    exact ⟨_, by simp only [itemToks, declToks, deriveToks, code_derive, List.cons_append]; rfl⟩
  | .enum id vs => exact ⟨_, by simp only [itemToks, declToks, deriveToks, code_derive, List.cons_append]; rfl⟩

theorem readItems_ok (u : Nat) (is : List TypeItem) (h : ∀ i ∈ is, LegItem i) :
    readItems (linesText u (joinBlocks (is.map TypeItem.render))) = some is := by
  have hl := Lexes.blocks is TypeItem.render itemToks (fun i hi => item_lines (h i hi))
  rw [readItems, hl.pieces, Option.bind_some]
  exact toEndAll_ok itemToks is (fun i hi r => typeItem_ok (h i hi) r) (fun i _ => item_first i)

end TPB.Spec.RustReader
