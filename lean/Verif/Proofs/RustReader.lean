/- The reader of `Spec/RustReader.lean` finds the tree whose text it is given. -/
import Verif.Spec.RustReader
import Verif.Proofs.Pieces
namespace TPB.Spec.RustReader
open Rust Pieces

/-! ### Fixed texts -/

@[simp] theorem code_empty : code "" = [] := by decide +kernel
@[simp] theorem code_colon : code ":" = [.sym ':'] := by decide +kernel
@[simp] theorem code_comma : code "," = [.sym ','] := by decide +kernel
@[simp] theorem code_path : code "::" = [.sym ':', .sym ':'] := by decide +kernel
@[simp] theorem code_bytesReader : code "bytes_reader." = [.word "bytes_reader", .sym '.'] := by decide +kernel
@[simp] theorem code_parens : code "()" = [.sym '(', .sym ')'] := by decide +kernel
@[simp] theorem code_readFrom : code "read_from_buffers(bytes_reader)" =
    [.word "read_from_buffers", .sym '(', .word "bytes_reader", .sym ')'] := by
  decide +kernel
@[simp] theorem code_selfDot : code "self." = [.word "self", .sym '.'] := by decide +kernel
@[simp] theorem code_writeTo : code ".write_to_buffers(bytes_writer);" =
    [.sym '.', .word "write_to_buffers", .sym '(', .word "bytes_writer", .sym ')', .sym ';'] := by
  decide +kernel
@[simp] theorem code_bytesWriter : code "bytes_writer." = [.word "bytes_writer", .sym '.'] := by decide +kernel
@[simp] theorem code_endCall : code ");" = [.sym ')', .sym ';'] := by decide +kernel
@[simp] theorem code_default : code "default()" = [.word "default", .sym '(', .sym ')'] := by decide +kernel
@[simp] theorem code_pub : code "pub" = [.word "pub"] := by decide +kernel
@[simp] theorem code_derive : code "#[derive(Debug, Clone, PartialEq)] pub" =
    [.sym '#', .sym '[', .word "derive", .sym '(', .word "Debug", .sym ',', .word "Clone", .sym ',', .word "PartialEq", .sym ')', .sym ']', .word "pub"] := by
  decide +kernel
@[simp] theorem code_openB : code "{" = [.sym '{'] := by decide +kernel
@[simp] theorem code_self : code "Self" = [.word "Self"] := by decide +kernel
@[simp] theorem code_implDefault : code "impl Default for" =
    [.word "impl", .word "Default", .word "for"] := by
  decide +kernel
@[simp] theorem code_fnDefault : code "{ fn default() -> Self {" =
    [.sym '{', .word "fn", .word "default", .sym '(', .sym ')', .sym '-', .sym '>', .word "Self", .sym '{'] := by
  decide +kernel
@[simp] theorem code_closeB2 : code "} }" = [.sym '}', .sym '}'] := by decide +kernel
@[simp] theorem code_closeB : code "}" = [.sym '}'] := by decide +kernel
@[simp] theorem code_arrowReturn : code "=> return" = [.sym '=', .sym '>', .word "return"] := by decide +kernel
@[simp] theorem code_letValue : code "let value =" = [.word "let", .word "value", .sym '='] := by decide +kernel
@[simp] theorem code_matchValue : code "; match value {" =
    [.sym ';', .word "match", .word "value", .sym '{'] := by
  decide +kernel
@[simp] theorem code_readUnit : code "fn read_from_buffers(_: &mut BytesReader) -> Self {" =
    [.word "fn", .word "read_from_buffers", .sym '(', .word "_", .sym ':', .sym '&', .word "mut", .word "BytesReader", .sym ')', .sym '-', .sym '>', .word "Self", .sym '{'] := by
  decide +kernel
@[simp] theorem code_readHead : code "fn read_from_buffers(bytes_reader: &mut BytesReader) -> Self {" =
    [.word "fn", .word "read_from_buffers", .sym '(', .word "bytes_reader", .sym ':', .sym '&', .word "mut", .word "BytesReader", .sym ')', .sym '-', .sym '>', .word "Self", .sym '{'] := by
  decide +kernel
@[simp] theorem code_selfOpen : code "Self {" = [.word "Self", .sym '{'] := by decide +kernel
@[simp] theorem code_arrowOpen : code "=> {" = [.sym '=', .sym '>', .sym '{'] := by decide +kernel
@[simp] theorem code_writeNop : code "fn write_to_buffers(&self, _: &mut BytesWriter) {}" =
    [.word "fn", .word "write_to_buffers", .sym '(', .sym '&', .word "self", .sym ',', .word "_", .sym ':', .sym '&', .word "mut", .word "BytesWriter", .sym ')', .sym '{', .sym '}'] := by
  decide +kernel
@[simp] theorem code_writeHead : code "fn write_to_buffers(&self, bytes_writer: &mut BytesWriter) {" =
    [.word "fn", .word "write_to_buffers", .sym '(', .sym '&', .word "self", .sym ',', .word "bytes_writer", .sym ':', .sym '&', .word "mut", .word "BytesWriter", .sym ')', .sym '{'] := by
  decide +kernel
@[simp] theorem code_matchSelf : code "match self {" = [.word "match", .word "self", .sym '{'] := by decide +kernel
@[simp] theorem code_semi : code ";" = [.sym ';'] := by decide +kernel
@[simp] theorem code_arrow : code "=>" = [.sym '=', .sym '>'] := by decide +kernel
@[simp] theorem code_unitComma : code "()," = [.sym '(', .sym ')', .sym ','] := by decide +kernel
@[simp] theorem code_skipNop : code "fn skip_in_buffers(_: &mut BytesReader, _: u64) {}" =
    [.word "fn", .word "skip_in_buffers", .sym '(', .word "_", .sym ':', .sym '&', .word "mut", .word "BytesReader", .sym ',', .word "_", .sym ':', .word "u64", .sym ')', .sym '{', .sym '}'] := by
  decide +kernel
@[simp] theorem code_skipHead : code "fn skip_in_buffers(bytes_reader: &mut BytesReader, count: u64) { for _ in 0..count {" =
    [.word "fn", .word "skip_in_buffers", .sym '(', .word "bytes_reader", .sym ':', .sym '&', .word "mut", .word "BytesReader", .sym ',', .word "count", .sym ':', .word "u64", .sym ')', .sym '{', .word "for", .word "_", .word "in", .word "0..count", .sym '{'] := by
  decide +kernel
@[simp] theorem code_implInto : code "impl IntoVMBuffers for" =
    [.word "impl", .word "IntoVMBuffers", .word "for"] := by
  decide +kernel
@[simp] theorem code_otherwise : code "=> panic!(\"Unsupported enum value: {}\", value), }" =
    [.sym '=', .sym '>', .word "panic", .sym '!', .sym '(', .str "Unsupported enum value: {}", .sym ',', .word "value", .sym ')', .sym ',', .sym '}'] := by
  decide +kernel
@[simp] theorem code_L_readFrom : code "::read_from_buffers(bytes_reader)" =
    [.sym ':', .sym ':', .word "read_from_buffers", .sym '(', .word "bytes_reader", .sym ')'] := by
  decide +kernel
@[simp] theorem code_L_turbo : code "::<" = [.sym ':', .sym ':', .sym '<'] := by decide +kernel
@[simp] theorem code_L_open : code "(" = [.sym '('] := by decide +kernel
@[simp] theorem code_L_openS : code " {" = [.sym '{'] := by decide +kernel
@[simp] theorem code_L_colon : code ": " = [.sym ':'] := by decide +kernel
@[simp] theorem code_L_default : code "::default()" =
    [.sym ':', .sym ':', .word "default", .sym '(', .sym ')'] := by
  decide +kernel
@[simp] theorem code_L_derive : code "#[derive(Debug, Clone, PartialEq)]" =
    [.sym '#', .sym '[', .word "derive", .sym '(', .word "Debug", .sym ',', .word "Clone", .sym ',', .word "PartialEq", .sym ')', .sym ']'] := by
  decide +kernel
@[simp] theorem code_L_struct : code "pub struct " = [.word "pub", .word "struct"] := by decide +kernel
@[simp] theorem code_L_enum : code "pub enum " = [.word "pub", .word "enum"] := by decide +kernel
@[simp] theorem code_L_pub : code "pub " = [.word "pub"] := by decide +kernel
@[simp] theorem code_L_closeP : code ")," = [.sym ')', .sym ','] := by decide +kernel
@[simp] theorem code_L_closeB : code "}," = [.sym '}', .sym ','] := by decide +kernel
@[simp] theorem code_L_return : code " => return " = [.sym '=', .sym '>', .word "return"] := by decide +kernel
@[simp] theorem code_L_let : code "let value = " = [.word "let", .word "value", .sym '='] := by decide +kernel
@[simp] theorem code_L_match : code "match value {" = [.word "match", .word "value", .sym '{'] := by decide +kernel
@[simp] theorem code_L_unsupported : code "_ => panic!(\"Unsupported enum value: {}\", value)," =
    [.word "_", .sym '=', .sym '>', .word "panic", .sym '!', .sym '(', .str "Unsupported enum value: {}", .sym ',', .word "value", .sym ')', .sym ','] := by
  decide +kernel
@[simp] theorem code_L_arrowOpen : code " => {" = [.sym '=', .sym '>', .sym '{'] := by decide +kernel
@[simp] theorem code_L_closeArrowP : code ") => {" = [.sym ')', .sym '=', .sym '>', .sym '{'] := by decide +kernel
@[simp] theorem code_L_closeArrowB : code "} => {" = [.sym '}', .sym '=', .sym '>', .sym '{'] := by decide +kernel
@[simp] theorem code_L_arrowUnit : code " => ()," =
    [.sym '=', .sym '>', .sym '(', .sym ')', .sym ','] := by
  decide +kernel
@[simp] theorem code_L_skipHead : code "fn skip_in_buffers(bytes_reader: &mut BytesReader, count: u64) {" =
    [.word "fn", .word "skip_in_buffers", .sym '(', .word "bytes_reader", .sym ':', .sym '&', .word "mut", .word "BytesReader", .sym ',', .word "count", .sym ':', .word "u64", .sym ')', .sym '{'] := by
  decide +kernel
@[simp] theorem code_L_for : code "for _ in 0..count {" =
    [.word "for", .word "_", .word "in", .word "0..count", .sym '{'] := by
  decide +kernel
@[simp] theorem code_L_implInto : code "impl IntoVMBuffers for " =
    [.word "impl", .word "IntoVMBuffers", .word "for"] := by
  decide +kernel
@[simp] theorem code_L_implDefault : code "impl Default for " =
    [.word "impl", .word "Default", .word "for"] := by
  decide +kernel
@[simp] theorem code_L_fnDefault : code "fn default() -> Self {" =
    [.word "fn", .word "default", .sym '(', .sym ')', .sym '-', .sym '>', .word "Self", .sym '{'] := by
  decide +kernel
@[simp] theorem code_L_selfPath : code "Self::" = [.word "Self", .sym ':', .sym ':'] := by decide +kernel
@[simp] theorem code_L_star : code "*" = [.sym '*'] := by decide +kernel
@[simp] theorem code_L_closeParen : code ")" = [.sym ')'] := by decide +kernel
@[simp] theorem code_L_lt : code "<" = [.sym '<'] := by decide +kernel
@[simp] theorem code_L_gt : code ">" = [.sym '>'] := by decide +kernel
@[simp] theorem code_L_commaS : code ", " = [.sym ','] := by decide +kernel
@[simp] theorem clean_0 : Clean "::read_from_buffers(bytes_reader)" := by decide +kernel
@[simp] theorem clean_1 : Clean "::<" := by decide +kernel
@[simp] theorem clean_2 : Clean "(" := by decide +kernel
@[simp] theorem clean_3 : Clean " {" := by decide +kernel
@[simp] theorem clean_4 : Clean ": " := by decide +kernel
@[simp] theorem clean_5 : Clean "::default()" := by decide +kernel
@[simp] theorem clean_6 : Clean "#[derive(Debug, Clone, PartialEq)]" := by decide +kernel
@[simp] theorem clean_7 : Clean "pub struct " := by decide +kernel
@[simp] theorem clean_8 : Clean "pub enum " := by decide +kernel
@[simp] theorem clean_9 : Clean "pub " := by decide +kernel
@[simp] theorem clean_10 : Clean ")," := by decide +kernel
@[simp] theorem clean_11 : Clean "}," := by decide +kernel
@[simp] theorem clean_12 : Clean " => return " := by decide +kernel
@[simp] theorem clean_13 : Clean "let value = " := by decide +kernel
@[simp] theorem clean_14 : Clean "match value {" := by decide +kernel
@[simp] theorem clean_15 : Clean "_ => panic!(\"Unsupported enum value: {}\", value)," := by decide +kernel
@[simp] theorem clean_16 : Clean " => {" := by decide +kernel
@[simp] theorem clean_17 : Clean ") => {" := by decide +kernel
@[simp] theorem clean_18 : Clean "} => {" := by decide +kernel
@[simp] theorem clean_19 : Clean " => ()," := by decide +kernel
@[simp] theorem clean_20 : Clean "fn skip_in_buffers(bytes_reader: &mut BytesReader, count: u64) {" := by decide +kernel
@[simp] theorem clean_21 : Clean "for _ in 0..count {" := by decide +kernel
@[simp] theorem clean_22 : Clean "impl IntoVMBuffers for " := by decide +kernel
@[simp] theorem clean_23 : Clean "impl Default for " := by decide +kernel
@[simp] theorem clean_24 : Clean "fn default() -> Self {" := by decide +kernel
@[simp] theorem clean_25 : Clean "Self::" := by decide +kernel
@[simp] theorem clean_26 : Clean "*" := by decide +kernel
@[simp] theorem clean_27 : Clean ")" := by decide +kernel
@[simp] theorem clean_28 : Clean "<" := by decide +kernel
@[simp] theorem clean_29 : Clean ">" := by decide +kernel
@[simp] theorem clean_30 : Clean ", " := by decide +kernel
@[simp] theorem clean_31 : Clean "bytes_reader." := by decide +kernel
@[simp] theorem clean_32 : Clean "bytes_writer." := by decide +kernel
@[simp] theorem clean_33 : Clean "self." := by decide +kernel
@[simp] theorem clean_34 : Clean "()" := by decide +kernel
@[simp] theorem clean_35 : Clean "," := by decide +kernel
@[simp] theorem clean_36 : Clean ";" := by decide +kernel
@[simp] theorem clean_37 : Clean ");" := by decide +kernel
@[simp] theorem clean_38 : Clean ".write_to_buffers(bytes_writer);" := by decide +kernel
@[simp] theorem clean_39 : Clean "Self {" := by decide +kernel
@[simp] theorem clean_40 : Clean "match self {" := by decide +kernel
@[simp] theorem clean_41 : Clean "}" := by decide +kernel
@[simp] theorem clean_42 : Clean "fn read_from_buffers(_: &mut BytesReader) -> Self {" := by decide +kernel
@[simp] theorem clean_43 : Clean "fn read_from_buffers(bytes_reader: &mut BytesReader) -> Self {" := by decide +kernel
@[simp] theorem clean_44 : Clean "fn write_to_buffers(&self, _: &mut BytesWriter) {}" := by decide +kernel
@[simp] theorem clean_45 : Clean "fn write_to_buffers(&self, bytes_writer: &mut BytesWriter) {" := by decide +kernel
@[simp] theorem clean_46 : Clean "fn skip_in_buffers(_: &mut BytesReader, _: u64) {}" := by decide +kernel

/-! ### Pieces of a tree -/

mutual
def tyToks : Ty → List Tok
  | .named id => [.word id]
  | .app id args => .word id :: .sym '<' :: tysToks args
/-- With the closing bracket. -/
def tysToks : List Ty → List Tok
  | [] => [.sym '>']
  | t :: ts => tyToks t ++ tysTail ts
def tysTail : List Ty → List Tok
  | [] => [.sym '>']
  | t :: ts => .sym ',' :: (tyToks t ++ tysTail ts)
end

mutual
/-- All names can be names in Rust, and angle brackets are not empty. -/
def LegTy : Ty → Prop
  | .named id => RustName id
  | .app id args => RustName id ∧ args ≠ [] ∧ LegTys args
def LegTys : List Ty → Prop
  | [] => True
  | t :: ts => LegTy t ∧ LegTys ts
end

def pathToks : Ty → List Tok
  | .named id => [.word id, .sym ':', .sym ':']
  | .app id args => .word id :: .sym ':' :: .sym ':' :: .sym '<' :: (tysToks args ++ [.sym ':', .sym ':'])

/-- The rest of a method name. -/
def Tail (m : String) : Prop := m.toList.all (fun d => d.isAlphanum || d == '_') = true

def readToks : ReadE → List Tok
  | .prim m => code "bytes_reader." ++ .word ("read_" ++ m) :: code "()"
  | .path t => pathToks t ++ code "read_from_buffers(bytes_reader)"

def LegRead : ReadE → Prop
  | .prim m => Tail m
  | .path t => LegTy t

def placeToks : Acc → List Tok
  | .field n => code "self." ++ [.word n]
  | .var n => [.word n]
  | .lit k => [.word (toString k)]

def valueToks : Acc → List Tok
  | .var n => [.sym '*', .word n]
  | a => placeToks a

def writeToks : WriteS → List Tok
  | .prim m a => code "bytes_writer." ++ .word ("write_" ++ m) :: .sym '(' :: (valueToks a ++ code ");")
  | .call a => placeToks a ++ code ".write_to_buffers(bytes_writer);"

def LegPlace : Acc → Prop
  | .field n => RustName n
  | .var n => RustName n
  | .lit _ => False

def LegValue : Acc → Prop
  | .lit _ => True
  | a => LegPlace a

def LegWrite : WriteS → Prop
  | .prim m a => Tail m ∧ LegValue a
  | .call a => LegPlace a

def defToks : DefE → List Tok
  | .zero => [.word "0"]
  | .zeroF => [.word "0.0"]
  | .no => [.word "false"]
  | .call t => pathToks t ++ code "default()"

def LegDef : DefE → Prop
  | .call t => LegTy t
  | _ => True

def namedToks {α : Type} (f : α → List Tok) (x : String × α) : List Tok :=
  .word x.1 :: .sym ':' :: (f x.2 ++ [.sym ','])

def payloadToks {α : Type} (f : α → List Tok) : Payload α → List Tok
  | .unit => []
  | .tuple xs => .sym '(' :: (xs.flatMap (fun a => f a ++ [.sym ',']) ++ [.sym ')'])
  | .named xs => .sym '{' :: (xs.flatMap (namedToks f) ++ [.sym '}'])

def LegPayload {α : Type} (L : α → Prop) : Payload α → Prop
  | .unit => True
  | .tuple xs => ∀ a ∈ xs, L a
  | .named xs => ∀ x ∈ xs, RustName x.1 ∧ L x.2

/-! ### Types -/

theorem RustName.ident {n : String} (h : RustName n) : isIdent n = true := h.1

theorem name_ok {n : String} (h : RustName n) (r : List Tok) : name (.word n :: r) = some (n, r) := by
  rw [name, if_pos ⟨h.1, h.2⟩]

theorem joinStr_cons (sep s : String) (ss : List String) :
    joinStr sep (s :: ss) = s ++ (ss.map (fun t => sep ++ t)).foldr (· ++ ·) "" := by
  induction ss generalizing s with
  | nil => simp [joinStr]
  | cons t ts ih => simp [joinStr, ih t, String.append_assoc]

mutual
theorem ty_piece : (t : Ty) → LegTy t → Piece t.render.toList (tyToks t) ∧ noNL (tyToks t)
  | .named id, h => by
    rw [LegTy] at h
    rw [Ty.render, tyToks]
    exact ⟨piece_ident id (isIdent_spec h.1), noNL_word id⟩
  | .app id args, h => by
    rw [LegTy] at h
    rw [Ty.render, tyToks]
    obtain ⟨hr, hn⟩ := tys_runs args h.2.1 h.2.2
    have hp := piece_ident id (isIdent_spec h.1.1)
    refine ⟨?_, ?_⟩
    · have e : (id ++ "<" ++ joinStr ", " (args.map Ty.render) ++ ">").toList
          = id.toList ++ '<' :: (joinStr ", " (args.map Ty.render) ++ ">").toList := by
        simp [String.toList_append]
      rw [e]
      have := hp.runs (c := '<') (by decide)
        ((show Runs .idle ['<'] [.sym '<'] .idle by decide).append hr)
      simpa using this.toPiece
    · exact (noNL_word id).append (noNL.append (a := [.sym '<']) (by intro t ht; simp at ht; simp [ht]) hn)
theorem tys_runs : (ts : List Ty) → ts ≠ [] → LegTys ts →
    Runs .idle (joinStr ", " (ts.map Ty.render) ++ ">").toList (tysToks ts) .idle ∧ noNL (tysToks ts)
  | [], h, _ => absurd rfl h
  | t :: ts, _, h => by
    rw [LegTys] at h
    obtain ⟨hp, hn⟩ := ty_piece t h.1
    obtain ⟨c, cs, hc, hb, hr, hm⟩ := tail_runs ts h.2
    rw [tysToks]
    refine ⟨?_, hn.append hm⟩
    rw [List.map_cons, joinStr_cons, String.append_assoc, String.toList_append, hc]
    exact hp.runs hb hr
theorem tail_runs : (ts : List Ty) → LegTys ts →
    ∃ c cs, (((ts.map Ty.render).map (fun t => ", " ++ t)).foldr (· ++ ·) "" ++ ">").toList = c :: cs ∧ isBreak c ∧
      Runs .idle (c :: cs) (tysTail ts) .idle ∧ noNL (tysTail ts)
  | [], _ => ⟨'>', [], by simp, by decide, by rw [tysTail]; decide, by
      rw [tysTail]; intro t ht; simp at ht; simp [ht]⟩
  | t :: ts, h => by
    rw [LegTys] at h
    obtain ⟨hp, hn⟩ := ty_piece t h.1
    obtain ⟨c, cs, hc, hb, hr, hm⟩ := tail_runs ts h.2
    refine ⟨',', ' ' :: (t.render.toList ++ c :: cs), ?_, by decide, ?_, ?_⟩
    · rw [List.map_cons, List.map_cons, List.foldr_cons, String.append_assoc, String.append_assoc,
        String.toList_append, String.toList_append, hc]
      rfl
    · rw [tysTail]
      exact (show Runs .idle [',', ' '] [.sym ','] .idle by decide).append (hp.runs hb hr)
    · rw [tysTail]
      exact noNL.append (a := [.sym ',']) (by intro t ht; simp at ht; simp [ht]) (hn.append hm)
end

/-- The next piece does not open angle brackets. -/
def NoArgs (r : List Tok) : Prop := ∀ q, r ≠ .sym '<' :: q

mutual
theorem ty_ok : (t : Ty) → LegTy t → ∀ (k : Nat) (r : List Tok), NoArgs r → (tyToks t).length ≤ k →
    ty k (tyToks t ++ r) = some (t, r)
  | .named id, h, k, r, hr, hk => by
    rw [LegTy] at h
    rw [tyToks] at hk ⊢
    match k, hk with
    | k + 1, _ =>
      rw [List.singleton_append, ty, name_ok h]
      split
      · rename_i h2; simp at h2; exact absurd h2.2 (hr _)
      · rename_i h2; simp at h2; rw [h2.1, h2.2]
      · rename_i h2; simp at h2
  | .app id args, h, k, r, _, hk => by
    rw [LegTy] at h
    rw [tyToks] at hk ⊢
    match k, hk with
    | k + 1, hk =>
      simp only [List.length_cons] at hk
      rw [List.cons_append, List.cons_append, ty, name_ok h.1]
      simp only
      rw [tys_ok args h.2.1 h.2.2 k r (by omega)]
      rfl
theorem tys_ok : (ts : List Ty) → ts ≠ [] → LegTys ts → ∀ (k : Nat) (r : List Tok), (tysToks ts).length ≤ k →
    tys k (tysToks ts ++ r) = some (ts, r)
  | [], h, _, _, _, _ => absurd rfl h
  | t :: ts, _, h, k, r, hk => by
    rw [LegTys] at h
    rw [tysToks] at hk ⊢
    rw [List.length_append] at hk
    exact tail_ok t ts (fun k r => ty_ok t h.1 k r) h.2 k r hk
/-- The first type and the rest. -/
theorem tail_ok : (t : Ty) → (ts : List Ty) → (∀ (k : Nat) (r : List Tok), NoArgs r → (tyToks t).length ≤ k →
      ty k (tyToks t ++ r) = some (t, r)) → LegTys ts →
    ∀ (k : Nat) (r : List Tok), (tyToks t).length + (tysTail ts).length ≤ k →
      tys k (tyToks t ++ tysTail ts ++ r) = some (t :: ts, r)
  | t, [], ht, _, k, r, hk => by
    rw [tysTail] at hk ⊢
    simp only [List.length_cons, List.length_nil] at hk
    match k, hk with
    | k + 1, hk =>
      rw [List.append_assoc, List.singleton_append, tys, ht k _ (by intro q; simp) (by omega)]
      rfl
  | t, u :: us, ht, h, k, r, hk => by
    rw [LegTys] at h
    rw [tysTail] at hk ⊢
    simp only [List.length_cons, List.length_append] at hk
    match k, hk with
    | k + 1, hk =>
      rw [List.append_assoc, List.cons_append, tys, ht k _ (by intro q; simp) (by omega)]
      simp only
      rw [tail_ok u us (fun k r => ty_ok u h.1 k r) h.2 k r (by omega)]
      rfl
end

theorem anyTy_ok {t : Ty} (h : LegTy t) {r : List Tok} (hr : NoArgs r) : anyTy (tyToks t ++ r) = some (t, r) :=
  ty_ok t h _ r hr (by rw [List.length_append]; omega)

/-! ### Expressions and statements -/

theorem render_readPrim (m : String) : (ReadE.prim m).render = "bytes_reader.read_" ++ m ++ "()" := rfl
theorem render_readNamed (id : String) :
    (ReadE.path (.named id)).render = id ++ "::read_from_buffers(bytes_reader)" := rfl
theorem render_readApp (id : String) (args : List Ty) : (ReadE.path (.app id args)).render
    = id ++ "::<" ++ joinStr ", " (args.map Ty.render) ++ ">::read_from_buffers(bytes_reader)" := rfl
theorem render_writePrim (m : String) (a : Acc) :
    (WriteS.prim m a).render = "bytes_writer.write_" ++ m ++ "(" ++ a.renderValue ++ ");" := rfl
theorem render_writeCall (a : Acc) : (WriteS.call a).render = a.render ++ ".write_to_buffers(bytes_writer);" := rfl
theorem render_defApp (id : String) (args : List Ty) : (DefE.call (.app id args)).render
    = id ++ "::<" ++ joinStr ", " (args.map Ty.render) ++ ">::default()" := rfl
theorem valueVar (n : String) : (Acc.var n).renderValue = "*" ++ n := rfl
theorem valueField (n : String) : (Acc.field n).renderValue = "self." ++ n := rfl
theorem valueLit (n : Nat) : (Acc.lit n).renderValue = toString n := rfl
theorem placeVar (n : String) : (Acc.var n).render = n := rfl
theorem placeField (n : String) : (Acc.field n).render = "self." ++ n := rfl
theorem gt_readFrom : ">" ++ "::read_from_buffers(bytes_reader)" = ">::read_from_buffers(bytes_reader)" := rfl
theorem gt_default : ">" ++ "::default()" = ">::default()" := rfl

theorem bytesReader_read (m : String) : "bytes_reader.read_" ++ m = "bytes_reader." ++ ("read_" ++ m) := by
  rw [← String.append_assoc]; rfl

theorem bytesWriter_write (m : String) : "bytes_writer.write_" ++ m = "bytes_writer." ++ ("write_" ++ m) := by
  rw [← String.append_assoc]; rfl

theorem number_repr (k : Nat) (r : List Tok) : number (.word k.repr :: r) = some (k, r) := number_ok k r

theorem tail_ident (start m : String) (hs : isIdent start = true) (h : Tail m) : isIdent (start ++ m) = true := by
  unfold isIdent at *
  unfold Tail at h
  rw [String.toList_append]
  cases hc : start.toList with
  | nil => simp [hc] at hs
  | cons c cs =>
    rw [hc] at hs
    simp only [List.cons_append, List.all_append, Bool.and_eq_true] at hs ⊢
    exact ⟨hs.1, hs.2, h⟩

theorem rest_ok (start m : String) : rest start (start ++ m) = some m := by
  unfold rest
  rw [String.toList_append, if_pos (by rw [List.isPrefixOf_iff_prefix]; exact ⟨_, rfl⟩)]
  rw [← String.length_toList, List.drop_left, String.ofList_toList]

theorem tys_piece {args : List Ty} (h1 : args ≠ []) (h2 : LegTys args) :
    Piece (joinStr ", " (args.map Ty.render) ++ ">").toList (tysToks args) ∧ noNL (tysToks args) :=
  ⟨(tys_runs args h1 h2).1.toPiece, (tys_runs args h1 h2).2⟩

theorem path_ok {t : Ty} (h : LegTy t) {r : List Tok} (hr : NoArgs r) : path (pathToks t ++ r) = some (t, r) := by
  cases t with
  | named id =>
    rw [LegTy] at h
    simp only [pathToks, List.cons_append, List.nil_append]
    rw [path, before_ok (a := id) (r := r) (by rw [name_ok h]; simp)]
    split
    · rename_i h2; simp at h2; exact absurd h2.2 (hr _)
    · rename_i h2; simp at h2; rw [h2.1, h2.2]
    · rename_i h2; simp at h2
  | app id args =>
    rw [LegTy] at h
    simp only [pathToks, List.cons_append, List.nil_append, List.append_assoc]
    rw [path, before_ok (a := id) (r := .sym '<' :: (tysToks args ++ .sym ':' :: .sym ':' :: r))
      (by rw [name_ok h.1]; simp)]
    simp only
    rw [tys_ok args h.2.1 h.2.2 _ _ (by rw [List.length_append]; omega)]
    simp [eat]

theorem read_piece {e : ReadE} (h : LegRead e) : Piece e.render.toList (readToks e) ∧ noNL (readToks e) := by
  match e, h with
  | .prim m, h =>
    refine piece_of [.k "bytes_reader.", .w ("read_" ++ m), .k "()"] ?_ ?_ ?_
    · exact ⟨by simp, tail_ident "read_" m (by decide) h, by simp only [begins]; decide, by simp, trivial⟩
    · simp only [render_readPrim, render_readNamed, render_readApp, gt_readFrom,
        segsText, Seg.text, String.append_assoc, String.append_empty, bytesReader_read, bytesWriter_write]
    · simp [readToks, segsToks, Seg.toks]
  | .path (.named id), h =>
    rw [LegRead, LegTy] at h
    refine piece_of [.w id, .k "::read_from_buffers(bytes_reader)"] ?_ ?_ ?_
    · exact ⟨h.1, by simp only [begins]; decide, by simp, trivial⟩
    · simp only [render_readPrim, render_readNamed, render_readApp, gt_readFrom,
        segsText, Seg.text, String.append_assoc, String.append_empty, bytesReader_read, bytesWriter_write]
    · simp [readToks, segsToks, Seg.toks, pathToks]
  | .path (.app id args), h =>
    rw [LegRead, LegTy] at h
    obtain ⟨hp, hn⟩ := tys_piece h.2.1 h.2.2
    refine piece_of [.w id, .k "::<", .p (joinStr ", " (args.map Ty.render) ++ ">") (tysToks args),
      .k "::read_from_buffers(bytes_reader)"] ?_ ?_ ?_
    · exact ⟨h.1.1, by simp only [begins]; decide, by simp, hp, hn, by simp only [begins]; decide, by simp, trivial⟩
    · simp only [render_readPrim, render_readNamed, render_readApp, gt_readFrom,
        segsText, Seg.text, String.append_assoc, String.append_empty, bytesReader_read, bytesWriter_write]
    · simp [readToks, segsToks, Seg.toks, pathToks]

theorem readE_ok {e : ReadE} (h : LegRead e) (r : List Tok) : readE (readToks e ++ r) = some (e, r) := by
  match e, h with
  | .prim m, h => simp [readToks, readE, eat, rest_ok]
  | .path t, h =>
    have h' : LegTy t := h
    have hf : eat (code "bytes_reader.") (readToks (.path t) ++ r) = none := by
      cases t <;> simp [readToks, pathToks, eat]
    rw [readE, hf]
    simp only
    rw [readToks, List.append_assoc,
      before_ok (path_ok h' (r := code "read_from_buffers(bytes_reader)" ++ r) (by intro q; simp))]
    rfl

theorem write_piece {s : WriteS} (h : LegWrite s) : Piece s.render.toList (writeToks s) ∧ noNL (writeToks s) := by
  match s, h with
  | .prim m (.field n), h =>
    have hn : RustName n := h.2
    refine piece_of [.k "bytes_writer.", .w ("write_" ++ m), .k "(", .k "self.", .w n, .k ");"] ?_ ?_ ?_
    · exact ⟨by simp, tail_ident "write_" m (by decide) h.1, by simp only [begins]; decide, by simp, by simp, hn.1, by simp only [begins]; decide, by simp,
        trivial⟩
    · simp only [render_writePrim, render_writeCall, valueVar, valueField, valueLit, placeVar, placeField,
        segsText, Seg.text, String.append_assoc, String.append_empty, bytesReader_read, bytesWriter_write]
    · simp [writeToks, valueToks, placeToks, segsToks, Seg.toks]
  | .prim m (.var n), h =>
    have hn : RustName n := h.2
    refine piece_of [.k "bytes_writer.", .w ("write_" ++ m), .k "(", .k "*", .w n, .k ");"] ?_ ?_ ?_
    · exact ⟨by simp, tail_ident "write_" m (by decide) h.1, by simp only [begins]; decide, by simp, by simp, hn.1, by simp only [begins]; decide, by simp,
        trivial⟩
    · simp only [render_writePrim, render_writeCall, valueVar, valueField, valueLit, placeVar, placeField,
        segsText, Seg.text, String.append_assoc, String.append_empty, bytesReader_read, bytesWriter_write]
    · simp [writeToks, valueToks, segsToks, Seg.toks]
  | .prim m (.lit k), h =>
    refine piece_of [.k "bytes_writer.", .w ("write_" ++ m), .k "(", .p (toString k) [.word (toString k)], .k ");"]
      ?_ ?_ ?_
    · exact ⟨by simp, tail_ident "write_" m (by decide) h.1, by simp only [begins]; decide, by simp, piece_nat k, noNL_word _, by simp only [begins]; decide,
        by simp, trivial⟩
    · simp only [render_writePrim, render_writeCall, valueVar, valueField, valueLit, placeVar, placeField,
        segsText, Seg.text, String.append_assoc, String.append_empty, bytesReader_read, bytesWriter_write]
    · simp [writeToks, valueToks, placeToks, segsToks, Seg.toks]
  | .call (.field n), h =>
    have hn : RustName n := h
    refine piece_of [.k "self.", .w n, .k ".write_to_buffers(bytes_writer);"] ?_ ?_ ?_
    · exact ⟨by simp, hn.1, by simp only [begins]; decide, by simp, trivial⟩
    · simp only [render_writePrim, render_writeCall, valueVar, valueField, valueLit, placeVar, placeField,
        segsText, Seg.text, String.append_assoc, String.append_empty, bytesReader_read, bytesWriter_write]
    · simp [writeToks, placeToks, segsToks, Seg.toks]
  | .call (.var n), h =>
    have hn : RustName n := h
    refine piece_of [.w n, .k ".write_to_buffers(bytes_writer);"] ?_ ?_ ?_
    · exact ⟨hn.1, by simp only [begins]; decide, by simp, trivial⟩
    · simp only [render_writePrim, render_writeCall, valueVar, valueField, valueLit, placeVar, placeField,
        segsText, Seg.text, String.append_assoc, String.append_empty, bytesReader_read, bytesWriter_write]
    · simp [writeToks, placeToks, segsToks, Seg.toks]

theorem rustName_ne {n : String} (h : RustName n) (w : String) (hw : w ∈ rustKeywords) : w ≠ n := by
  rintro rfl; exact h.2 hw

theorem writeS_ok {s : WriteS} (h : LegWrite s) (r : List Tok) : writeS (writeToks s ++ r) = some (s, r) := by
  match s, h with
  | .prim m (.field n), h =>
    have hn : RustName n := h.2
    have hv : value (.word "self" :: .sym '.' :: .word n :: .sym ')' :: .sym ';' :: r)
        = some (.field n, code ");" ++ r) := by
      simp [value, eat, name_ok hn]
    simp only [writeToks, valueToks, placeToks, writeS, primS]
    have hb := before_ok hv
    simp [eat, rest_ok] at hb ⊢
    rw [hb]
  | .prim m (.var n), h =>
    have hn : RustName n := h.2
    have hv : value (.sym '*' :: .word n :: .sym ')' :: .sym ';' :: r) = some (.var n, code ");" ++ r) := by
      simp [value, name_ok hn]
    simp only [writeToks, valueToks, writeS, primS]
    have hb := before_ok hv
    simp [eat, rest_ok] at hb ⊢
    rw [hb]
  | .prim m (.lit k), h =>
    have hk : "self" ≠ toString k := by
      intro he
      have := number_ok k []
      rw [← he, number, if_neg (by decide)] at this
      simp at this
    have hv : value (.word (toString k) :: .sym ')' :: .sym ';' :: r) = some (.lit k, code ");" ++ r) := by
      simp only [value, eat, code_selfDot, code_endCall, hk, Tok.word.injEq, if_false, number_ok, Option.map_some]; rfl
    simp only [writeToks, valueToks, placeToks, writeS, primS]
    have hb := before_ok hv
    simp [eat, rest_ok] at hb ⊢
    rw [hb]
  | .call (.field n), h =>
    have hn : RustName n := h
    have hp : place (.word "self" :: .sym '.' :: .word n :: (code ".write_to_buffers(bytes_writer);" ++ r))
        = some (.field n, code ".write_to_buffers(bytes_writer);" ++ r) := by
      simp [place, eat, name_ok hn]
    have h1 : primS (writeToks (.call (.field n)) ++ r) = none := by simp [primS, writeToks, placeToks, eat]
    rw [writeS, h1]
    simp only [callS, writeToks, placeToks, code_selfDot, List.cons_append, List.nil_append]
    rw [before_ok hp]; rfl
  | .call (.var n), h =>
    have hn : RustName n := h
    have hs := rustName_ne hn "self" (by decide)
    have hp : place (.word n :: (code ".write_to_buffers(bytes_writer);" ++ r))
        = some (.var n, code ".write_to_buffers(bytes_writer);" ++ r) := by
      simp [place, eat, name_ok hn, hs]
    have h1 : primS (writeToks (.call (.var n)) ++ r) = none := by
      by_cases hb : "bytes_writer" = n
      · subst hb
        have : number (.word "bytes_writer" :: .sym ')' :: .sym ';' :: r) = none := by
          rw [number, if_neg (by decide)]
        simp [primS, writeToks, placeToks, eat, before, value, this]
      · simp [primS, writeToks, placeToks, eat, hb]
    rw [writeS, h1]
    simp only [callS, writeToks, placeToks, List.cons_append, List.nil_append]
    rw [before_ok hp]; rfl

theorem def_piece {e : DefE} (h : LegDef e) : Piece e.render.toList (defToks e) ∧ noNL (defToks e) := by
  match e, h with
  | .zero, _ => exact ⟨piece_number '0' [] (by decide) (by simp), noNL_word _⟩
  | .zeroF, _ =>
    exact ⟨piece_number '0' ['.', '0'] (by decide) (by decide), noNL_word _⟩
  | .no, _ => exact ⟨piece_ident "false" (by decide), noNL_word _⟩
  | .call (.named id), h =>
    rw [LegDef, LegTy] at h
    refine piece_of [.w id, .k "::default()"] ?_ ?_ ?_
    · exact ⟨h.1, by simp only [begins]; decide, by simp, trivial⟩
    · simp only [DefE.render, gt_default,
        segsText, Seg.text, String.append_assoc, String.append_empty, bytesReader_read, bytesWriter_write]
    · simp [defToks, segsToks, Seg.toks, pathToks]
  | .call (.app id args), h =>
    rw [LegDef, LegTy] at h
    obtain ⟨hp, hn⟩ := tys_piece h.2.1 h.2.2
    refine piece_of [.w id, .k "::<", .p (joinStr ", " (args.map Ty.render) ++ ">") (tysToks args),
      .k "::default()"] ?_ ?_ ?_
    · exact ⟨h.1.1, by simp only [begins]; decide, by simp, hp, hn, by simp only [begins]; decide, by simp, trivial⟩
    · simp only [DefE.render, gt_default,
        segsText, Seg.text, String.append_assoc, String.append_empty, bytesReader_read, bytesWriter_write]
    · simp [defToks, segsToks, Seg.toks, pathToks]

theorem defE_ok {e : DefE} (h : LegDef e) (r : List Tok) : defE (defToks e ++ r) = some (e, r) := by
  match e, h with
  | .zero, _ => simp [defToks, defE]
  | .zeroF, _ => simp [defToks, defE]
  | .no, _ => simp [defToks, defE]
  | .call t, h =>
    have h' : LegTy t := h
    have hp := before_ok (path_ok h' (r := code "default()" ++ r) (by intro q; simp))
    rw [← List.append_assoc] at hp
    have hw : ∃ w q, pathToks t ++ code "default()" ++ r = .word w :: q ∧ RustName w := by
      cases t with
      | named id => rw [LegTy] at h'; exact ⟨id, _, by simp only [pathToks, List.cons_append]; rfl, h'⟩
      | app id args => rw [LegTy] at h'; exact ⟨id, _, by simp only [pathToks, List.cons_append]; rfl, h'.1⟩
    obtain ⟨w, q, hq, hw⟩ := hw
    rw [defToks]
    rw [hq] at hp ⊢
    have n1 : w ≠ "0" := by rintro rfl; exact absurd hw.1 (by decide)
    have n2 : w ≠ "0.0" := by rintro rfl; exact absurd hw.1 (by decide)
    have n3 : w ≠ "false" := (rustName_ne hw "false" (by decide)).symm
    unfold defE
    split
    · rename_i h; simp at h; exact absurd h.1 n1
    · rename_i h; simp at h; exact absurd h.1 n2
    · rename_i h; simp at h; exact absurd h.1 n3
    · rw [hp]; rfl

end TPB.Spec.RustReader
