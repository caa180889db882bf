import Verif.Model.JsonText
import Verif.Spec.JsonText
import Verif.Proof.CommandLine

/-!
# JSON texts

That the text of a value follows the grammar, and that the grammar is unambiguous. For the latter there is a reader that understands all texts.
-/

namespace Angonoka.JsonGrammar
open Angonoka

/-! ### The text of a value follows the grammar -/

theorem ws_newLine (n : Nat) : Ws (Json.newLine n) := by
  intro c hc
  rcases List.mem_cons.1 hc with rfl | h
  · exact .inr (.inr (.inl rfl))
  · exact .inl (List.eq_of_mem_replicate h)

theorem ws_nil : Ws [] := by intro c hc; cases hc

theorem ws_space : Ws [' '] := by intro c hc; exact .inl (List.mem_singleton.1 hc)

theorem escape_text (c : Char) : CharText c (Json.escape c) := by
  have hof : ∀ n, c.toNat = n → c = Char.ofNat n := by
    rintro n rfl
    exact (Char.ofNat_toNat c).symm
  unfold Json.escape
  split
  · next h => subst h; exact .quotation
  split
  · next h => subst h; exact .backslash
  split
  · next h => rw [hof _ h]; exact .backspace
  split
  · next h => rw [hof _ h]; exact .tab
  split
  · next h => rw [hof _ h]; exact .lineFeed
  split
  · next h => rw [hof _ h]; exact .formFeed
  split
  · next h => rw [hof _ h]; exact .return
  split
  · next h =>
    have key : ∀ n < 32, hex4 '0' '0' (Json.hexDigit (n / 16)) (Json.hexDigit (n % 16)) = some n := by decide
    have := CharText.basic (key _ h) (by omega)
    rwa [Char.ofNat_toNat] at this
  · next h1 h2 _ _ _ _ _ h => exact .plain h1 h2 (by omega)

theorem chars_text (cs : List Char) : CharsText cs (cs.flatMap Json.escape) := by
  induction cs with
  | nil => exact .nil
  | cons c cs ih =>
    rw [List.flatMap_cons]
    exact .cons (escape_text c) ih

theorem quote_text (s : String) : StringText s (Json.quote s) := ⟨_, chars_text _, rfl⟩

theorem decimal_eq (ds : List Char) : decimal ds = Nat.ofDigitChars 10 ds 0 := rfl

theorem digits_text (n : Nat) : Digits (Nat.toDigits 10 n) ∧ decimal (Nat.toDigits 10 n) = n := by
  refine ⟨⟨Nat.toDigits_ne_nil, ?_, ?_⟩, ?_⟩
  · intro c hc
    have := Nat.isDigit_of_mem_toDigits (by decide) (by decide) hc
    simpa [Char.isDigit, Char.le_def] using this
  · intro h
    rcases Nat.eq_zero_or_pos n with rfl | hn
    · rfl
    · cases hd : Nat.toDigits 10 n with
      | nil => rw [hd] at h; cases h
      | cons c rest =>
        rw [hd] at h
        simp only [List.head?_cons, Option.some.injEq] at h
        subst h
        exact absurd hd (CommandLine.head_toDigits hn rest)
  · rw [decimal_eq]
    exact Nat.ofDigitChars_ten_toDigits

theorem integer_text (i : Int) : IntText i (Json.integer i) := by
  obtain ⟨h1, h2⟩ := digits_text i.natAbs
  unfold Json.integer
  split
  · next h =>
    have := IntText.negative h1
    rw [h2] at this
    rwa [show -(i.natAbs : Int) = i by omega] at this
  · next h =>
    have := IntText.natural h1
    rw [h2] at this
    rwa [show (i.natAbs : Int) = i by omega] at this

mutual

theorem dump_text (n : Nat) : ∀ j, ValueText j (Json.dump n j)
  | .int i => by rw [Json.dump]; exact .int (integer_text i)
  | .str s => by rw [Json.dump]; exact .str (quote_text s)
  | .arr [] => by rw [Json.dump]; exact .emptyArray ws_nil
  | .arr (x :: xs) => by
    have := ValueText.array (elements_text (n + 4) n (dump_text (n + 4) x) xs)
    rw [Json.dump]
    simpa using this
  | .obj [] => by rw [Json.dump]; exact .emptyObject ws_nil
  | .obj ((k, x) :: ms) => by
    have := ValueText.object (members_text (n + 4) n k (dump_text (n + 4) x) ms)
    rw [Json.dump]
    simpa using this

theorem elements_text (n m : Nat) {x : Json} (hx : ValueText x (Json.dump n x)) :
    ∀ xs, ElementsText (x :: xs) (Json.newLine n ++ (Json.dump n x ++ (Json.dumpElements n xs ++ Json.newLine m)))
  | [] => by
    rw [Json.dumpElements, List.nil_append]
    exact .one (ws_newLine n) hx (ws_newLine m)
  | y :: ys => by
    have := ElementsText.cons (ws_newLine n) hx ws_nil (elements_text n m (dump_text n y) ys)
    rw [Json.dumpElements]
    simpa using this

theorem members_text (n m : Nat) (k : String) {x : Json} (hx : ValueText x (Json.dump n x)) :
    ∀ ms, MembersText ((k, x) :: ms)
      (Json.newLine n ++ (Json.quote k ++ (':' :: ' ' :: (Json.dump n x ++ (Json.dumpMembers n ms ++ Json.newLine m)))))
  | [] => by
    rw [Json.dumpMembers, List.nil_append]
    exact .one (ws_newLine n) (quote_text k) ws_nil ws_space hx (ws_newLine m)
  | (k', y) :: ms => by
    have := MembersText.cons (ws_newLine n) (quote_text k) ws_nil ws_space hx ws_nil (members_text n m k' (dump_text n y) ms)
    rw [Json.dumpMembers]
    simpa using this

end

/-! ### A reader -/

def isWs (c : Char) : Bool := c = ' ' || c = '\t' || c = '\n' || c = '\r'

def skipWs (s : List Char) : List Char := s.dropWhile isWs

def simpleEscape (c : Char) : Option Char :=
  if c = '"' then some '"' else if c = '\\' then some '\\' else if c = '/' then some '/' else if c = 'b' then some (Char.ofNat 8)
  else if c = 'f' then some (Char.ofNat 12) else if c = 'n' then some (Char.ofNat 10) else if c = 'r' then some (Char.ofNat 13)
  else if c = 't' then some (Char.ofNat 9) else none

/-- One character -/
def readChar : List Char → Option (Char × List Char)
  | '\\' :: 'u' :: a :: b :: c :: d :: rest =>
    match hex4 a b c d with
    | none => none
    | some n =>
      if 0xD800 ≤ n ∧ n < 0xE000 then
        match rest with
        | '\\' :: 'u' :: a' :: b' :: c' :: d' :: rest' =>
          (hex4 a' b' c' d').map fun n' => (Char.ofNat (0x10000 + (n - 0xD800) * 0x400 + (n' - 0xDC00)), rest')
        | _ => none
      else some (Char.ofNat n, rest)
  | '\\' :: c :: rest => (simpleEscape c).map fun c => (c, rest)
  | c :: rest => some (c, rest)
  | [] => none

/-- The rest of a string after its first quotation mark -/
def readChars : Nat → List Char → Option (List Char × List Char)
  | 0, _ => none
  | f + 1, s =>
    if s.head? = some '"' then some ([], s.tail)
    else match readChar s with
      | some (c, r) => (readChars f r).map fun x => (c :: x.1, x.2)
      | none => none

def readString (s : List Char) : Option (String × List Char) :=
  if s.head? = some '"' then (readChars s.length s.tail).map fun x => (String.ofList x.1, x.2) else none

def isDigit (c : Char) : Bool := '0' ≤ c && c ≤ '9'

def readInt (s : List Char) : Int × List Char :=
  if s.head? = some '-' then (-(decimal (s.tail.takeWhile isDigit) : Int), s.tail.dropWhile isDigit)
  else (decimal (s.takeWhile isDigit), s.dropWhile isDigit)

mutual

def readValue : Nat → List Char → Option (Json × List Char)
  | 0, _ => none
  | f + 1, s =>
    if s.head? = some '"' then (readString s).map fun x => (.str x.1, x.2)
    else if s.head? = some '[' then
      if (skipWs s.tail).head? = some ']' then some (.arr [], (skipWs s.tail).tail)
      else (readElements f s.tail).map fun x => (.arr x.1, x.2)
    else if s.head? = some '{' then
      if (skipWs s.tail).head? = some '}' then some (.obj [], (skipWs s.tail).tail)
      else (readMembers f s.tail).map fun x => (.obj x.1, x.2)
    else some (.int (readInt s).1, (readInt s).2)

/-- Elements up to the closing bracket -/
def readElements : Nat → List Char → Option (List Json × List Char)
  | 0, _ => none
  | f + 1, s =>
    (readValue f (skipWs s)).bind fun x =>
      if (skipWs x.2).head? = some ',' then (readElements f (skipWs x.2).tail).map fun y => (x.1 :: y.1, y.2)
      else some ([x.1], (skipWs x.2).tail)

/-- Members up to the closing brace -/
def readMembers : Nat → List Char → Option (List (String × Json) × List Char)
  | 0, _ => none
  | f + 1, s =>
    (readString (skipWs s)).bind fun k =>
      (readValue f (skipWs (skipWs k.2).tail)).bind fun x =>
        if (skipWs x.2).head? = some ',' then (readMembers f (skipWs x.2).tail).map fun y => ((k.1, x.1) :: y.1, y.2)
        else some ([(k.1, x.1)], (skipWs x.2).tail)

end

def readText (text : String) : Option Json := (readValue (text.toList.length + 1) (skipWs text.toList)).map Prod.fst

/-! ### The reader understands every text -/

theorem isWs_iff (c : Char) : isWs c = true ↔ c = ' ' ∨ c = '\t' ∨ c = '\n' ∨ c = '\r' := by
  simp [isWs, or_assoc]

theorem skipWs_append {w : List Char} (h : Ws w) (s : List Char) : skipWs (w ++ s) = skipWs s := by
  induction w with
  | nil => rfl
  | cons c w ih =>
    unfold skipWs
    rw [List.cons_append, List.dropWhile_cons_of_pos ((isWs_iff c).2 (h c (List.mem_cons_self ..)))]
    exact ih fun c hc => h c (List.mem_cons_of_mem _ hc)

theorem skipWs_cons {c : Char} (h : isWs c = false) (s : List Char) : skipWs (c :: s) = c :: s := by
  unfold skipWs
  rw [List.dropWhile_cons_of_neg (by simp [h])]

theorem readChar_text {c : Char} {s : List Char} (h : CharText c s) (rest : List Char) :
    readChar (s ++ rest) = some (c, rest) ∧ ∃ x t, s = x :: t ∧ x ≠ '"' := by
  cases h with
  | plain h1 h2 h3 =>
    refine ⟨?_, _, _, rfl, h1⟩
    rw [List.singleton_append]
    unfold readChar
    split
    · next h => cases h; exact absurd rfl h2
    · next h => cases h; exact absurd rfl h2
    · next h => cases h; rfl
    · next h => cases h
  | quotation => exact ⟨rfl, _, _, rfl, by decide⟩
  | backslash => exact ⟨rfl, _, _, rfl, by decide⟩
  | slash => exact ⟨rfl, _, _, rfl, by decide⟩
  | backspace => exact ⟨rfl, _, _, rfl, by decide⟩
  | formFeed => exact ⟨rfl, _, _, rfl, by decide⟩
  | lineFeed => exact ⟨rfl, _, _, rfl, by decide⟩
  | «return» => exact ⟨rfl, _, _, rfl, by decide⟩
  | tab => exact ⟨rfl, _, _, rfl, by decide⟩
  | basic h1 h2 =>
    refine ⟨?_, _, _, rfl, by decide⟩
    simp only [List.cons_append, List.nil_append, readChar, h1, if_neg h2]
  | pair h1 h2 h3 h4 =>
    refine ⟨?_, _, _, rfl, by decide⟩
    simp only [List.cons_append, List.nil_append, readChar, h1, h2, Option.map_some]
    rw [if_pos ⟨h3.1, by omega⟩]

theorem readChars_text {cs t : List Char} (h : CharsText cs t) : ∀ (rest : List Char) (f : Nat), t.length < f →
    readChars f (t ++ '"' :: rest) = some (cs, rest) := by
  induction h with
  | nil =>
    intro rest f hf
    obtain ⟨f, rfl⟩ : ∃ g, f = g + 1 := ⟨f - 1, by simp at hf; omega⟩
    simp [readChars]
  | @cons c cs s t hc _ ih =>
    intro rest f hf
    obtain ⟨f, rfl⟩ : ∃ g, f = g + 1 := ⟨f - 1, by simp at hf; omega⟩
    obtain ⟨h1, x, s', rfl, hx⟩ := readChar_text hc (t ++ '"' :: rest)
    rw [readChars, List.append_assoc, h1, if_neg (by simpa using hx)]
    dsimp only
    rw [ih rest f (by simp at hf; omega)]
    rfl

theorem readString_text {k : String} {s : List Char} (h : StringText k s) (rest : List Char) : readString (s ++ rest) = some (k, rest) := by
  obtain ⟨t, ht, rfl⟩ := h
  unfold readString
  rw [if_pos (by simp)]
  have : readChars (('"' :: (t ++ ['"']) ++ rest).length) (('"' :: (t ++ ['"']) ++ rest).tail) = some (k.toList, rest) := by
    have := readChars_text ht rest (('"' :: (t ++ ['"']) ++ rest).length) (by simp [Nat.add_assoc])
    simpa using this
  rw [this]
  simp

/-- The rest of a text does not go on with a digit. -/
def Stops (rest : List Char) : Prop := ∀ c, rest.head? = some c → isDigit c = false

theorem takeDigits {ds rest : List Char} (hd : ∀ c ∈ ds, isDigit c = true) (hr : Stops rest) :
    (ds ++ rest).takeWhile isDigit = ds ∧ (ds ++ rest).dropWhile isDigit = rest := by
  have h2 : rest.takeWhile isDigit = [] ∧ rest.dropWhile isDigit = rest := by
    cases rest with
    | nil => exact ⟨rfl, rfl⟩
    | cons c r => simp [hr c rfl]
  rw [List.takeWhile_append_of_pos hd, List.dropWhile_append_of_pos hd, h2.1, h2.2, List.append_nil]
  exact ⟨rfl, rfl⟩

theorem digits_isDigit {ds : List Char} (h : Digits ds) : ∀ c ∈ ds, isDigit c = true := by
  intro c hc
  have := h.2.1 c hc
  simpa [isDigit] using this

theorem digits_head {ds : List Char} (h : Digits ds) : ∃ c t, ds = c :: t ∧ isDigit c = true := by
  cases ds with
  | nil => exact absurd rfl h.1
  | cons c t => exact ⟨c, t, rfl, digits_isDigit h c (List.mem_cons_self ..)⟩

theorem readInt_text {i : Int} {t : List Char} (h : IntText i t) {rest : List Char} (hr : Stops rest) : readInt (t ++ rest) = (i, rest) := by
  cases h with
  | natural hd =>
    obtain ⟨h1, h2⟩ := takeDigits (digits_isDigit hd) hr
    obtain ⟨c, t', rfl, hc⟩ := digits_head hd
    unfold readInt
    rw [if_neg, h1, h2]
    simp only [List.cons_append, List.head?_cons, Option.some.injEq]
    rintro rfl
    exact absurd hc (by decide)
  | negative hd =>
    obtain ⟨h1, h2⟩ := takeDigits (digits_isDigit hd) hr
    unfold readInt
    rw [if_pos (by simp), List.cons_append, List.tail_cons, h1, h2]

/-- How a value starts -/
theorem value_head {j : Json} {t : List Char} (h : ValueText j t) :
    ∃ c s, t = c :: s ∧ isWs c = false ∧ c ≠ ']' ∧ c ≠ '}' ∧ c ≠ ',' := by
  cases h with
  | int h =>
    have hdig : ∀ c, isDigit c = true → isWs c = false ∧ c ≠ ']' ∧ c ≠ '}' ∧ c ≠ ',' := by
      intro c hc
      have hc' : '0' ≤ c ∧ c ≤ '9' := by simpa [isDigit] using hc
      refine ⟨?_, ?_, ?_, ?_⟩
      · rw [Bool.eq_false_iff]
        intro h
        rcases (isWs_iff c).1 h with rfl | rfl | rfl | rfl <;> exact absurd hc (by decide)
      all_goals (rintro rfl; exact absurd hc (by decide))
    cases h with
    | natural hd =>
      obtain ⟨c, t', rfl, hc⟩ := digits_head hd
      exact ⟨c, t', rfl, hdig c hc⟩
    | negative hd => exact ⟨_, _, rfl, by decide⟩
  | str h =>
    obtain ⟨u, _, rfl⟩ := h
    exact ⟨_, _, rfl, by decide⟩
  | emptyArray => exact ⟨_, _, rfl, by decide⟩
  | array => exact ⟨_, _, rfl, by decide⟩
  | emptyObject => exact ⟨_, _, rfl, by decide⟩
  | object => exact ⟨_, _, rfl, by decide⟩

theorem skip_value {j : Json} {t a : List Char} (ha : Ws a) (h : ValueText j t) (rest : List Char) : skipWs (a ++ (t ++ rest)) = t ++ rest := by
  obtain ⟨c, s, rfl, h1, -⟩ := value_head h
  rw [skipWs_append ha, List.cons_append, skipWs_cons h1]

theorem skip_string {k : String} {s a : List Char} (ha : Ws a) (h : StringText k s) (rest : List Char) : skipWs (a ++ (s ++ rest)) = s ++ rest := by
  obtain ⟨t, _, rfl⟩ := h
  rw [skipWs_append ha, List.cons_append, skipWs_cons (by decide)]

theorem stops_ws {b rest : List Char} (hb : Ws b) (h : Stops rest) : Stops (b ++ rest) := by
  cases b with
  | nil => exact h
  | cons c b =>
    intro x hx
    simp only [List.cons_append, List.head?_cons, Option.some.injEq] at hx
    subst hx
    rcases hb c (List.mem_cons_self ..) with rfl | rfl | rfl | rfl <;> decide

theorem stops_cons {c : Char} (h : isDigit c = false) (rest : List Char) : Stops (c :: rest) := by
  intro x hx
  simp only [List.head?_cons, Option.some.injEq] at hx
  subst hx
  exact h

mutual

theorem readValue_text {j : Json} {t : List Char} : ValueText j t → ∀ (rest : List Char) (f : Nat), Stops rest → t.length < f →
    readValue f (t ++ rest) = some (j, rest)
  | h, rest, 0, _, hf => absurd hf (by omega)
  | .int h, rest, f + 1, hr, hf => by
    have hread := readInt_text h hr
    have : ∀ c, c ∈ ['"', '[', '{'] → (t ++ rest).head? ≠ some c := by
      intro c hc
      cases h with
      | natural hd =>
        obtain ⟨c', t', rfl, hc'⟩ := digits_head hd
        simp only [List.cons_append, List.head?_cons, ne_eq, Option.some.injEq]
        rintro rfl
        simp only [List.mem_cons, List.not_mem_nil, or_false] at hc
        rcases hc with rfl | rfl | rfl <;> exact absurd hc' (by decide)
      | negative hd =>
        simp only [List.cons_append, List.head?_cons, ne_eq, Option.some.injEq]
        rintro rfl
        exact absurd hc (by decide)
    rw [readValue, if_neg (this _ (by decide)), if_neg (this _ (by decide)), if_neg (this _ (by decide)), hread]
  | .str h, rest, f + 1, hr, hf => by
    have h1 := readString_text h rest
    obtain ⟨u, _, rfl⟩ := h
    rw [readValue, if_pos (by simp), h1]
    rfl
  | .emptyArray (w := w) hw, rest, f + 1, hr, hf => by
    have h1 : skipWs ('[' :: (w ++ [']']) ++ rest).tail = ']' :: rest := by
      simp only [List.cons_append, List.tail_cons, List.append_assoc, List.nil_append]
      rw [skipWs_append hw, skipWs_cons (by decide)]
    rw [readValue, if_neg (by simp), if_pos (by simp), h1]
    simp
  | .array (xs := xs) (t := u) h, rest, f + 1, hr, hf => by
    have h1 := readElements_text h rest f (by simp at hf; omega)
    have h2 : (skipWs ('[' :: (u ++ [']']) ++ rest).tail).head? ≠ some ']' := by
      simp only [List.cons_append, List.tail_cons, List.append_assoc, List.nil_append]
      cases h with
      | one ha hv hb =>
        rw [List.append_assoc, List.append_assoc, skip_value ha hv]
        obtain ⟨c, s, rfl, -, h3, -⟩ := value_head hv
        simpa using h3
      | cons ha hv hb _ =>
        rw [List.append_assoc, List.append_assoc, skip_value ha hv]
        obtain ⟨c, s, rfl, -, h3, -⟩ := value_head hv
        simpa using h3
    rw [readValue, if_neg (by simp), if_pos (by simp), if_neg h2]
    have h3 : ('[' :: (u ++ [']']) ++ rest).tail = u ++ ']' :: rest := by simp
    rw [h3, h1]
    rfl
  | .emptyObject (w := w) hw, rest, f + 1, hr, hf => by
    have h1 : skipWs ('{' :: (w ++ ['}']) ++ rest).tail = '}' :: rest := by
      simp only [List.cons_append, List.tail_cons, List.append_assoc, List.nil_append]
      rw [skipWs_append hw, skipWs_cons (by decide)]
    rw [readValue, if_neg (by simp), if_neg (by simp), if_pos (by simp), h1]
    simp
  | .object (ms := ms) (t := u) h, rest, f + 1, hr, hf => by
    have h1 := readMembers_text h rest f (by simp at hf; omega)
    have h2 : (skipWs ('{' :: (u ++ ['}']) ++ rest).tail).head? ≠ some '}' := by
      simp only [List.cons_append, List.tail_cons, List.append_assoc, List.nil_append]
      cases h with
      | one ha hs hb _ _ _ =>
        obtain ⟨q, _, rfl⟩ := hs
        rw [List.append_assoc, skipWs_append ha, List.cons_append, List.cons_append, skipWs_cons (by decide)]
        simp
      | cons ha hs hb _ _ _ _ =>
        obtain ⟨q, _, rfl⟩ := hs
        rw [List.append_assoc, skipWs_append ha, List.cons_append, List.cons_append, skipWs_cons (by decide)]
        simp
    rw [readValue, if_neg (by simp), if_neg (by simp), if_pos (by simp), if_neg h2]
    have h3 : ('{' :: (u ++ ['}']) ++ rest).tail = u ++ '}' :: rest := by simp
    rw [h3, h1]
    rfl

theorem readElements_text {xs : List Json} {u : List Char} : ElementsText xs u → ∀ (rest : List Char) (f : Nat), u.length + 2 ≤ f →
    readElements f (u ++ ']' :: rest) = some (xs, rest)
  | h, rest, 0, hf => absurd hf (by omega)
  | .one (x := x) (a := a) (t := t) (b := b) ha hv hb, rest, f + 1, hf => by
    have h1 := readValue_text hv (b ++ ']' :: rest) f (stops_ws hb (stops_cons (by decide) _)) (by simp at hf; omega)
    have h2 : skipWs (b ++ ']' :: rest) = ']' :: rest := by rw [skipWs_append hb, skipWs_cons (by decide)]
    rw [readElements, List.append_assoc, List.append_assoc, skip_value ha hv, h1, Option.bind_some]
    dsimp only
    rw [h2, if_neg (by simp), List.tail_cons]
  | .cons (x := x) (xs := ys) (a := a) (t := t) (b := b) (u := u) ha hv hb hu, rest, f + 1, hf => by
    have h1 := readValue_text hv (b ++ ',' :: (u ++ ']' :: rest)) f (stops_ws hb (stops_cons (by decide) _)) (by simp at hf; omega)
    have h2 : skipWs (b ++ ',' :: (u ++ ']' :: rest)) = ',' :: (u ++ ']' :: rest) := by rw [skipWs_append hb, skipWs_cons (by decide)]
    have h3 := readElements_text hu rest f (by simp at hf; omega)
    rw [readElements, List.append_assoc, List.append_assoc, List.append_assoc, List.cons_append, skip_value ha hv, h1, Option.bind_some]
    dsimp only
    rw [h2, if_pos (by simp), List.tail_cons, h3]
    rfl

theorem readMembers_text {ms : List (String × Json)} {u : List Char} : MembersText ms u → ∀ (rest : List Char) (f : Nat), u.length + 2 ≤ f →
    readMembers f (u ++ '}' :: rest) = some (ms, rest)
  | h, rest, 0, hf => absurd hf (by omega)
  | .one (k := k) (a := a) (s := s) (b := b) (c := c) (t := t) (d := d) ha hs hb hc hv hd, rest, f + 1, hf => by
    have h1 := readValue_text hv (d ++ '}' :: rest) f (stops_ws hd (stops_cons (by decide) _)) (by simp at hf; omega)
    have h2 : skipWs (d ++ '}' :: rest) = '}' :: rest := by rw [skipWs_append hd, skipWs_cons (by decide)]
    rw [readMembers]
    simp only [List.append_assoc, List.cons_append]
    rw [skip_string ha hs, readString_text hs, Option.bind_some]
    dsimp only
    rw [skipWs_append hb, skipWs_cons (by decide), List.tail_cons, skip_value hc hv, h1, Option.bind_some]
    dsimp only
    rw [h2, if_neg (by simp), List.tail_cons]
  | .cons (k := k) (a := a) (s := s) (b := b) (c := c) (t := t) (d := d) (u := u) ha hs hb hc hv hd hu, rest, f + 1, hf => by
    have h1 := readValue_text hv (d ++ ',' :: (u ++ '}' :: rest)) f (stops_ws hd (stops_cons (by decide) _)) (by simp at hf; omega)
    have h2 : skipWs (d ++ ',' :: (u ++ '}' :: rest)) = ',' :: (u ++ '}' :: rest) := by rw [skipWs_append hd, skipWs_cons (by decide)]
    have h3 := readMembers_text hu rest f (by simp at hf; omega)
    rw [readMembers]
    simp only [List.append_assoc, List.cons_append]
    rw [skip_string ha hs, readString_text hs, Option.bind_some]
    dsimp only
    rw [skipWs_append hb, skipWs_cons (by decide), List.tail_cons, skip_value hc hv, h1, Option.bind_some]
    dsimp only
    rw [h2, if_pos (by simp), List.tail_cons, h3]
    rfl

end

/-- The reader understands every text. -/
theorem readText_text {j : Json} {text : String} (h : IsText j text) : readText text = some j := by
  obtain ⟨a, t, b, ha, ht, hb, e⟩ := h
  have hstop : Stops b := by
    have := stops_ws hb (rest := []) (by intro c hc; cases hc)
    rwa [List.append_nil] at this
  have h1 := readValue_text ht b (text.toList.length + 1) hstop (by rw [e]; simp; omega)
  unfold readText
  rw [show skipWs text.toList = t ++ b by rw [e, skip_value ha ht], h1]
  rfl

end Angonoka.JsonGrammar
