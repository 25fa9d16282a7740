/- The names of an accepted schema are the identifiers of its text. -/
import Verif.Spec.Names
import Verif.Spec.WellFormed
import Verif.Proofs.SchemaFacts
import Verif.Proofs.Lexer
namespace TPB
open Spec

/-! ### Names come from identifiers -/

theorem typesWords_append (as bs : List TypeId) : typesWords (as ++ bs) = typesWords as ++ typesWords bs := by
  induction as with
  | nil => simp [typesWords]
  | cons a as ih => simp [typesWords, ih]

theorem typeWords_ofName (n : String) : typeWords (typeOfName n) = [n] := by
  unfold typeOfName
  cases h : builtinTypes.lookup n with
  | none => simp [typeWords]
  | some t =>
    have : ∀ p ∈ builtinTypes, typeWords p.2 = [p.1] := by decide
    have key : ∀ (l : List (String × TypeId)), l.lookup n = some t → (n, t) ∈ l := by
      intro l
      induction l with
      | nil => simp
      | cons p l ih =>
        obtain ⟨a, b⟩ := p
        simp only [List.lookup_cons]
        cases hh : n == a with
        | true =>
          simp only [Option.some.injEq]
          rintro rfl
          simp [eq_of_beq hh]
        | false => intro h; simp [ih h]
    exact this _ (key _ h)

def kindWords : TypeKind → List String
  | .type t => typeWords t
  | .args as => typesWords as
  | .openArgs => []

theorem typeG_words {q : Bool} {k : TypeKind} {ts : List Token} (h : TypeG q k ts) : ∀ w ∈ kindWords k, .id w ∈ ts := by
  induction h with
  | name n => simp [kindWords, typeWords_ofName]
  | generic n as ts _ ih =>
    intro w hw
    simp only [kindWords, typeWords, List.mem_cons] at hw
    rcases hw with rfl | hw
    · simp
    · have := ih w hw
      simp [this]
  | openBracket n ts _ _ ih => simp [kindWords, typeWords_ofName]
  | argsOne t ts _ ih => simpa [kindWords, typesWords] using ih
  | argsMore t ts as us _ _ ih1 ih2 =>
    intro w hw
    simp only [kindWords, typesWords, List.mem_append] at hw
    rcases hw with hw | hw
    · simp [ih1 w hw]
    · simp [ih2 w hw]
  | openNil => simp [kindWords]
  | openMore t ts us _ _ ih1 ih2 => simp [kindWords]

theorem commaList_words {α : Type} {P : Nat → List Token → α → Prop} (f : α → List String)
    (hP : ∀ i ts a, P i ts a → ∀ w ∈ f a, .id w ∈ ts) {i : Nat} {ts : List Token} {as : List α} {e : Bool}
    (h : CommaList P i ts as e) : ∀ a ∈ as, ∀ w ∈ f a, .id w ∈ ts := by
  induction h with
  | nil => simp
  | last i ts a h =>
    intro b hb
    simp only [List.mem_singleton] at hb
    subst hb
    exact hP _ _ _ h
  | more i ts us a as e h _ ih =>
    intro b hb w hw
    rcases List.mem_cons.1 hb with rfl | hb
    · simp [hP _ _ _ h w hw]
    · simp [ih b hb w hw]

theorem fieldsG_words {q : Bool} {ts : List Token} {fs : List StructField} (h : FieldsG q ts fs) :
    ∀ f ∈ fs, ∀ w ∈ f.name :: typeWords f.typeId, .id w ∈ ts := by
  cases h with
  | plain e h =>
    refine commaList_words (fun f : StructField => f.name :: typeWords f.typeId) ?_ h
    rintro i ts a ⟨n, t, ts, ht⟩ w hw
    rcases List.mem_cons.1 hw with rfl | hw
    · simp
    · simp [typeG_words ht w hw]
  | numbered e h =>
    refine commaList_words (fun f : StructField => f.name :: typeWords f.typeId) ?_ h
    rintro i ts a ⟨v, n, t, ts, ht⟩ w hw
    rcases List.mem_cons.1 hw with rfl | hw
    · simp [positionTokens]
    · simp [positionTokens, typeG_words ht w hw]

theorem tupsG_words {q : Bool} {ts : List Token} {fs : List TupleField} (h : TupsG q ts fs) :
    ∀ f ∈ fs, ∀ w ∈ typeWords f.typeId, .id w ∈ ts := by
  cases h with
  | plain e h =>
    refine commaList_words (fun f : TupleField => typeWords f.typeId) ?_ h
    rintro i ts a ⟨t, _, ht⟩ w hw
    exact typeG_words ht w hw
  | numbered e h =>
    refine commaList_words (fun f : TupleField => typeWords f.typeId) ?_ h
    rintro i ts a ⟨v, t, ts, ht⟩ w hw
    simp [positionTokens, typeG_words ht w hw]

theorem variantG_words {q : Bool} {p : Nat} {ts : List Token} {i : EnumItem} (h : VariantG q p ts i) :
    ∀ w ∈ itemNames i ++ (itemTypes i).flatMap typeWords, .id w ∈ ts := by
  intro w hw
  cases h with
  | empty n => simpa [itemNames, itemTypes, EnumItem.id] using hw
  | tuple n ts fs h =>
    simp only [itemNames, itemTypes, EnumItem.id, List.cons_append, List.nil_append, List.mem_cons, List.mem_flatMap,
      List.mem_map] at hw
    rcases hw with rfl | ⟨t, ⟨f, hf, rfl⟩, hw⟩
    · simp
    · simp [tupsG_words h f hf w hw]
  | struct n ts fs h =>
    simp only [itemNames, itemTypes, EnumItem.id, List.cons_append, List.mem_cons, List.mem_append, List.mem_flatMap,
      List.mem_map] at hw
    rcases hw with rfl | ⟨f, hf, rfl⟩ | ⟨t, ⟨f, hf, rfl⟩, hw⟩
    · simp
    · simp [fieldsG_words h f hf f.name (by simp)]
    · simp [fieldsG_words h f hf w (by simp [hw])]

theorem variantsG_words {q : Bool} {ts : List Token} {is : List EnumItem} (h : VariantsG q ts is) :
    ∀ i ∈ is, ∀ w ∈ itemNames i ++ (itemTypes i).flatMap typeWords, .id w ∈ ts := by
  cases h with
  | plain e h => exact commaList_words _ (fun i ts a h => variantG_words h) h
  | numbered e h =>
    refine commaList_words (fun i : EnumItem => itemNames i ++ (itemTypes i).flatMap typeWords) ?_ h
    rintro i ts a ⟨v, ts, _, h⟩ w hw
    simp [positionTokens, variantG_words h w hw]

theorem constG_words {q : Bool} {ts : List Token} {is : List ConstItem} (h : ConstG q ts is) :
    ∀ w ∈ constsWords is, .id w ∈ ts := by
  induction h with
  | nil => simp [constsWords]
  | value n t l ts us is ht _ ih =>
    intro w hw
    simp only [constsWords, constWords, List.cons_append, List.mem_cons, List.mem_append] at hw
    rcases hw with rfl | hw | hw
    · simp
    · simp [typeG_words ht w hw]
    · simp [ih w hw]
  | node n ts us is js _ _ ih1 ih2 =>
    intro w hw
    simp only [constsWords, constWords, List.cons_append, List.mem_cons, List.mem_append] at hw
    rcases hw with rfl | hw | hw
    · simp
    · simp [ih1 w hw]
    · simp [ih2 w hw]

theorem retG_words {q : Bool} {ts : List Token} {r : Option TypeId} (h : RetG q ts r) :
    ∀ w ∈ r.toList.flatMap typeWords, .id w ∈ ts := by
  cases h with
  | none => simp
  | some t ts ht =>
    intro w hw
    simp only [Option.toList_some, List.flatMap_cons, List.flatMap_nil, List.append_nil] at hw
    simp [typeG_words ht w hw]

theorem declG_words {q : Bool} {k k' : Nat} {ts : List Token} {d : ASTNode} (h : DeclG q k ts d k') :
    ∀ w ∈ nodeWords d, .id w ∈ ts := by
  intro w hw
  cases h with
  | unit n =>
    simp only [nodeWords, declWords, List.map_nil, List.flatMap_nil, List.append_nil, List.mem_singleton] at hw
    simp [hw]
  | struct n ts fs h _ =>
    simp only [nodeWords, declWords, List.mem_cons, List.mem_append, List.mem_map, List.mem_flatMap] at hw
    rcases hw with rfl | ⟨f, hf, rfl⟩ | ⟨f, hf, hw⟩
    · simp
    · simp [fieldsG_words h f hf f.name (by simp)]
    · simp [fieldsG_words h f hf w (by simp [hw])]
  | enum n ts is h _ =>
    simp only [nodeWords, declWords, List.mem_cons, List.mem_append, List.mem_flatMap] at hw
    rcases hw with rfl | ⟨i, hi, hw⟩ | ⟨i, hi, hw⟩
    · simp
    · simp [variantsG_words h i hi w (by simp [hw])]
    · have := variantsG_words h i hi w (by simp only [List.mem_append, List.mem_flatMap]; exact .inr hw)
      simp [this]
  | fn a n ts us as e r h hr =>
    simp only [nodeWords, List.mem_cons, List.mem_append, List.mem_map, List.mem_flatMap] at hw
    have ha := commaList_words (fun a : FnArg => a.id :: typeWords a.typeId) (by
      rintro i ts a ⟨n, t, ts, ht⟩ w hw
      rcases List.mem_cons.1 hw with rfl | hw
      · simp
      · simp [typeG_words ht w hw]) h
    rcases hw with rfl | (⟨f, hf, rfl⟩ | ⟨f, hf, hw⟩) | hw
    · simp
    · simp [ha f hf f.id (by simp)]
    · simp [ha f hf w (by simp [hw])]
    · have := retG_words hr w (by simpa [List.mem_flatMap] using hw)
      simp [this]
  | read a n us r hr =>
    simp only [nodeWords, List.map_nil, List.flatMap_nil, List.append_nil, List.nil_append, List.mem_cons] at hw
    rcases hw with rfl | hw
    · simp
    · simp [retG_words hr w hw]
  | const n ts is h =>
    simp only [nodeWords, List.mem_cons] at hw
    rcases hw with rfl | hw
    · simp
    · simp [constG_words h w hw]
  | valueDirective n l => simpa [nodeWords] using hw
  | groupDirective n ts ps e x h _ =>
    simp only [nodeWords, List.mem_cons, List.mem_map] at hw
    have ha := commaList_words (fun p : IdValuePair => [p.id]) (by
      rintro i ts a ⟨n, l⟩ w hw
      simp only [List.mem_singleton] at hw
      simp [hw]) h
    rcases hw with rfl | ⟨p, hp, rfl⟩
    · simp
    · simp [ha p hp p.id (by simp)]

theorem schemaG_words {q : Bool} {k k' : Nat} {ts : List Token} {S : List ASTNode} (h : SchemaG q k ts S k') :
    ∀ d ∈ S, ∀ w ∈ nodeWords d, .id w ∈ ts := by
  induction h with
  | nil => simp
  | cons k k' k'' ts us d ds h _ ih =>
    intro c hc w hw
    rcases List.mem_cons.1 hc with rfl | hc
    · simp [declG_words h w hw]
    · simp [ih c hc w hw]

/-! ### Identifiers are legal names -/

theorem classifyName_id {s n : String} (h : classifyName s = .id n) : s = n ∧ n ∉ reserved := by
  unfold classifyName at h
  repeat' split at h
  all_goals (try simp at h)
  subst h
  simp_all [reserved]

theorem lexIdLoop_chars {acc cs name rest : List Char} (h : lexIdLoop acc cs = .ok (name, rest)) :
    ∃ c ds, cs.head? = some c ∧ name = acc ++ c :: ds ∧ ∀ d ∈ ds, IsLetter d ∨ IsDigit d := by
  fun_induction lexIdLoop acc cs generalizing name rest with
  | case1 => simp at h
  | case2 acc c =>
    simp only [Except.ok.injEq, Prod.mk.injEq] at h
    exact ⟨c, [], rfl, h.1.symm, by simp⟩
  | case3 acc c d ds hd =>
    simp only [Except.ok.injEq, Prod.mk.injEq] at h
    exact ⟨c, [], rfl, h.1.symm, by simp⟩
  | case4 acc c d ds hd ih =>
    obtain ⟨e, es, h1, h2, h3⟩ := ih h
    simp only [List.head?_cons, Option.some.injEq] at h1
    subst h1
    refine ⟨c, d :: es, rfl, by simp [h2], ?_⟩
    intro x hx
    rcases List.mem_cons.1 hx with rfl | hx
    · exact (isCharId_rest_iff _).1 (by simpa using hd)
    · exact h3 x hx

theorem lexId_name {ch : Char} {cs rest : List Char} {n : String} (hc : isCharId ch true = true)
    (h : lexId (ch :: cs) = .ok (.id n, rest)) : LegalName n := by
  unfold lexId at h
  split at h
  · simp at h
  · rename_i name r heq
    simp only [Except.ok.injEq, Prod.mk.injEq] at h
    obtain ⟨c, ds, h1, h2, h3⟩ := lexIdLoop_chars heq
    simp only [List.head?_cons, Option.some.injEq] at h1
    subst h1
    obtain ⟨e, hr⟩ := classifyName_id h.1
    refine ⟨?_, hr⟩
    rw [← e, h2]
    simp only [List.nil_append, String.toList_ofList]
    exact ⟨(isCharId_first_iff _).1 hc, h3⟩

theorem lexString_id {cs rest : List Char} {n : String} : lexString cs ≠ .ok (.id n, rest) := by
  intro h
  unfold lexString at h
  split at h
  · simp at h
  · split at h
    · simp at h
    · simp at h

theorem lexNumber_id {cs rest : List Char} {n : String} : lexNumber cs ≠ .ok (.id n, rest) := by
  intro h
  unfold lexNumber at h
  split at h
  · simp at h
  · split at h
    · simp at h
    · rename_i heq
      simp at h
      rw [h.1] at heq
      unfold numberToken at heq
      repeat' split at heq
      all_goals simp at heq

theorem tokenizeLoop_names : ∀ (k : Nat) (cs : List Char) (ts : List Token), tokenizeLoop k cs = .ok ts →
    ∀ n, .id n ∈ ts → LegalName n
  | k, [], ts, h => by
    cases k <;> (simp only [tokenizeLoop, Except.ok.injEq] at h; subst h; simp)
  | 0, _ :: _, ts, h => by simp [tokenizeLoop] at h
  | k + 1, ch :: cs, ts, h => by
    have ih := tokenizeLoop_names k
    simp only [tokenizeLoop, tokenizeStep] at h
    intro n hn
    have cons : ∀ (us : List Token) (rest : List Char), consToks us (tokenizeLoop k rest) = .ok ts →
        (∀ m, .id m ∈ us → LegalName m) → LegalName n := by
      intro us rest h hu
      obtain ⟨vs, h1, rfl⟩ := consToks_ok h
      rcases List.mem_append.1 hn with hn | hn
      · exact hu n hn
      · exact ih _ _ h1 n hn
    split at h
    · rename_i hc
      split at h
      · simp at h
      · rename_i t rest heq
        refine cons _ _ h (fun m hm => ?_)
        simp only [List.mem_singleton] at hm
        subst hm
        exact lexId_name hc heq
    · split at h
      · split at h
        · simp at h
        · rename_i t rest heq
          refine cons _ _ h (fun m hm => ?_)
          simp only [List.mem_singleton] at hm
          subst hm
          exact absurd heq lexString_id
      · split at h
        · split at h
          · simp at h
          · rename_i t rest heq
            refine cons _ _ h (fun m hm => ?_)
            simp only [List.mem_singleton] at hm
            subst hm
            exact absurd heq lexNumber_id
        · split at h
          · exact ih _ _ h n hn
          · split at h
            · split at h
              · exact ih _ _ h n hn
              · exact ih _ _ h n hn
              · exact cons _ _ h (by simp)
            · exact cons _ _ h (by simp)

theorem tokenize_names {src : String} {ts : List Token} (h : tokenize src = .ok ts) : ∀ n, .id n ∈ ts → LegalName n :=
  tokenizeLoop_names _ _ _ h

/-- The names of an accepted schema can be written down. -/
theorem parseSource_names {src : String} {S : List ASTNode} (h : parseSource src = .ok S) :
    ∀ d ∈ S, ∀ w ∈ nodeWords d, LegalName w := by
  unfold parseSource at h
  split at h
  · simp at h
  · rename_i ts heq
    obtain ⟨us, r, k, h1, _, h3⟩ := parse_sound h
    intro d hd w hw
    refine tokenize_names heq w ?_
    have := schemaG_words h3 d hd w hw
    rw [h1]
    simp [this]

theorem declWords_node (d : ASTNode) : ∀ w ∈ declWords d, w ∈ nodeWords d := by
  intro w hw
  cases d <;> first | exact hw | simp [declWords] at hw

end TPB
