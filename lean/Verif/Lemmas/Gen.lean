import Verif.Spec.Gen
import Verif.Lemmas.LexAppend

/-! Lemmas about the generator: the tokens of the generated text. -/

namespace Ddl
open Spec Gen
set_option autoImplicit false

variable {d : Dialect} {f : Flavor} {indent : Str}

theorem quote_eq (f : Flavor) : f.quote = nameQuote f := by cases f <;> rfl

theorem blankRun_blanks {s : Str} (h : ∀ c ∈ s, Blank c) {w : Str} (hw : BlankRun w) : BlankRun (s ++ w) := by
  induction s with
  | nil => exact hw
  | cons c r ih => exact .blank c _ (h c (by simp)) (ih (fun x hx => h x (by simp [hx])))

theorem blankRun_append {a b : Str} (ha : BlankRun a) (hb : BlankRun b) : BlankRun (a ++ b) := by
  induction ha with
  | nil => exact hb
  | blank c s hc _ ih => exact .blank c _ hc ih
  | comment body s hbd _ ih =>
    have := BlankRun.comment body _ hbd ih
    simpa using this

theorem blankRun_comment (hi : ∀ c ∈ indent, Blank c) {c : Str} (hc : OneLine c) :
    BlankRun (fprintComment indent c) := by
  unfold fprintComment
  split
  · have := blankRun_blanks hi (BlankRun.comment [] [] (by simp) .nil)
    simpa using this
  · have := blankRun_blanks hi (BlankRun.comment (s%" " ++ c) [] (by
      intro x hx
      simp only [List.cons_append, List.nil_append, List.mem_cons] at hx
      rcases hx with rfl | hx
      · exact ⟨by decide, by decide⟩
      · exact hc x hx) .nil)
    simpa using this

theorem blankRun_comments (hi : ∀ c ∈ indent, Blank c) {l : List Str} (hc : ∀ c ∈ l, OneLine c) :
    BlankRun (fprintComments indent l) := by
  unfold fprintComments
  induction l with
  | nil => exact .nil
  | cons c r ih =>
    simp only [List.map_cons, List.flatten_cons]
    exact blankRun_append (blankRun_comment hi (hc c (by simp))) (ih (fun x hx => hc x (by simp [hx])))

theorem writes_before {w s : Str} {ts : List Token} (hw : BlankRun w) (hs : Writes d false s ts) :
    Writes d false (w ++ s) ts :=
  (writes_blankRun hw).append hs (noMerge_blankRun hw _)

theorem writes_symbol {c : Char} {t : TokType} {s : Str} {ts : List Token} (h : (c, t) ∈ symbols) (hc : c ≠ '-')
    (hs : Writes d false s ts) : Writes d false (c :: s) (sym c t :: ts) :=
  .symbol c t s ts h (fun e => absurd e hc) hs

theorem writes_nl {s : Str} {ts : List Token} (hs : Writes d false s ts) : Writes d false ('\n' :: s) ts :=
  .blank _ _ _ (by simp [Blank]) hs

theorem writes_sp {s : Str} {ts : List Token} (hs : Writes d false s ts) : Writes d false (' ' :: s) ts :=
  .blank _ _ _ (by simp [Blank]) hs

theorem writes_name (hq : nameQuote f ∈ quotes d) {n s : Str} {ts : List Token} (hn : Quotable (nameQuote f) n)
    (hs : Writes d false s ts) : Writes d false (quoted f n ++ s) (nameTok (nameQuote f) n :: ts) := by
  have := Writes.quoted (d := d) (fin := false) (nameQuote f) (nameQuote f) n s ts hq hn (Or.inl rfl) hs
  simpa [quoted, quote_eq, nameTok] using this

theorem writes_word {w s : Str} {ts : List Token} {t : TokType} (hn : w ≠ []) (hw : ∀ c ∈ w, WordChar c)
    (ht : WordType d w t) (hs : ∀ c, s.head? = some c → Soft c) (h : Writes d false s ts) :
    Writes d false (w ++ s) (⟨t, w⟩ :: ts) := by
  refine .word w t s ts hn hw ht ?_ h
  intro c hc he
  exact (hs c he).1 hc

/-- A separator `x` (a comma, and blanks around) between complete texts. -/
theorem writes_keyColumns (hq : nameQuote f ∈ quotes d) {s : Str} {ts : List Token} (hs : Writes d false s ts) :
    ∀ (l : List Str), (∀ k ∈ l, Quotable (nameQuote f) k) →
    Writes d false (fprintKeyColumns f l ++ s) (commaSep (l.map (fun k => [nameTok (nameQuote f) k])) ++ ts)
  | [], _ => by simpa [fprintKeyColumns, commaSep] using hs
  | [k], h => by
    have := writes_name (d := d) hq (h k (by simp)) hs
    simpa [fprintKeyColumns, commaSep, List.intercalate, List.intersperse] using this
  | k :: k' :: r, h => by
    have ih := writes_keyColumns hq hs (k' :: r) (fun x hx => h x (by simp [hx]))
    have := writes_name (d := d) hq (h k (by simp)) (writes_symbol (c := ',') (t := .COMMA) (by decide) (by decide)
      (writes_sp ih))
    rw [fprintKeyColumns]
    simpa [commaSep, List.intercalate, List.intersperse] using this

theorem writes_key (hq : nameQuote f ∈ quotes d) {l : List Str} (h : ∀ k ∈ l, Quotable (nameQuote f) k)
    {s : Str} {ts : List Token} (hs : Writes d false s ts) :
    Writes d false (s%"PRIMARY KEY (" ++ fprintKeyColumns f l ++ s%")" ++ s) (keyToks (nameQuote f) l ++ ts) := by
  have h1 := writes_keyColumns hq (writes_symbol (c := ')') (t := .CLOSE_PAREN) (by decide) (by decide) hs) l h
  have h2 := writes_sp (writes_symbol (c := '(') (t := .OPEN_PAREN) (by decide) (by decide) h1)
  have h3 := writes_word (d := d) (w := s%"KEY") (t := .KEY) (by decide) (by decide)
    (Or.inl (by cases d <;> decide +kernel)) (by intro c hc; cases hc; decide) h2
  have h4 := writes_word (d := d) (w := s%"PRIMARY") (t := .PRIMARY) (by decide) (by decide)
    (Or.inl (by cases d <;> decide +kernel)) (by intro c hc; cases hc; decide) (writes_sp h3)
  simpa [keyToks] using h4

/-- Text behind a complete fragment. -/
theorem writes_complete {x s : Str} {ts : List Token} (hx : Complete d x) (hs : ∀ c, s.head? = some c → Soft c)
    (h : Writes d false s ts) : Writes d false (x ++ s) (lex d x ++ ts) :=
  hx.append h (noMerge_head hs)

theorem writes_clause (hi : ∀ c ∈ indent, Blank c) {c : Clause} (hc : ∀ x ∈ c.comments, OneLine x)
    (ht : Complete d c.text) {s : Str} {ts : List Token} (hs : ∀ c, s.head? = some c → Soft c)
    (h : Writes d false s ts) : Writes d false (fprintClause indent c ++ s) (lex d c.text ++ ts) := by
  unfold fprintClause
  rw [List.append_assoc, List.append_assoc]
  refine writes_before (blankRun_comments hi hc) ?_
  have := writes_before (blankRun_blanks hi .nil) (writes_complete ht hs h)
  simpa using this

theorem commaSep_cons (a b : List Token) (l : List (List Token)) :
    commaSep (a :: b :: l) = a ++ sym ',' .COMMA :: commaSep (b :: l) := by
  simp [commaSep, List.intercalate, List.intersperse]

theorem commaSep_single (a : List Token) : commaSep [a] = a := by simp [commaSep, List.intercalate, List.intersperse]

theorem writes_constraints (hi : ∀ c ∈ indent, Blank c) {s : Str} {ts : List Token} (h : Writes d false s ts) :
    ∀ (l : List Clause), (∀ c ∈ l, ∀ x ∈ c.comments, OneLine x) → (∀ c ∈ l, Complete d c.text) →
    Writes d false (fprintConstraints indent l ++ s) (commaSep (l.map (fun c => lex d c.text)) ++ ts)
  | [], _, _ => by simpa [fprintConstraints, commaSep] using h
  | [c], hc, ht => by
    have := writes_clause hi (hc c (by simp)) (ht c (by simp)) (s := '\n' :: s) (by intro x hx; cases hx; decide)
      (writes_nl h)
    simpa [fprintConstraints, commaSep_single] using this
  | c :: c' :: r, hc, ht => by
    have ih := writes_constraints hi h (c' :: r) (fun x hx => hc x (by simp [hx])) (fun x hx => ht x (by simp [hx]))
    have := writes_clause hi (hc c (by simp)) (ht c (by simp)) (by intro x hx; cases hx; decide)
      (writes_symbol (c := ',') (t := .COMMA) (by decide) (by decide) (writes_nl ih))
    rw [fprintConstraints]
    simpa [commaSep_cons] using this

theorem writes_options {s : Str} {ts : List Token} (hs : ∀ c, s.head? = some c → Soft c) (h : Writes d false s ts) :
    ∀ (l : List Clause), (∀ c ∈ l, ∀ x ∈ c.comments, OneLine x) → (∀ c ∈ l, Complete d c.text) →
    Writes d false (fprintOptions l ++ s) (commaSep (l.map (fun c => lex d c.text)) ++ ts)
  | [], _, _ => by simpa [fprintOptions, commaSep] using h
  | [c], hc, ht => by
    have := writes_nl (writes_clause (indent := []) (by simp) (hc c (by simp)) (ht c (by simp)) hs h)
    simpa [fprintOptions, commaSep_single] using this
  | c :: c' :: r, hc, ht => by
    have ih := writes_options hs h (c' :: r) (fun x hx => hc x (by simp [hx])) (fun x hx => ht x (by simp [hx]))
    have := writes_nl (writes_clause (indent := []) (by simp) (hc c (by simp)) (ht c (by simp))
      (by intro x hx; cases hx; decide)
      (writes_symbol (c := ',') (t := .COMMA) (by decide) (by decide) ih))
    rw [fprintOptions]
    simpa [commaSep_cons] using this

theorem writes_column (hi : ∀ c ∈ indent, Blank c) (hq : nameQuote f ∈ quotes d) (width : Nat) {c : Column}
    (hc : ∀ x ∈ c.comments, OneLine x) (hn : Quotable (nameQuote f) c.name) (ht : Complete d c.typeConstraint)
    {s : Str} {ts : List Token} (hs : ∀ c, s.head? = some c → Soft c) (h : Writes d false s ts) :
    Writes d false (fprintComments indent c.comments ++ (indent ++ padRight width (quoted f c.name) ++ s%" " ++
      c.typeConstraint) ++ s) (columnToks d (nameQuote f) c ++ ts) := by
  have hb : ∀ n, ∀ c ∈ List.replicate n ' ', Blank c := by
    intro n c hc; rw [List.mem_replicate] at hc; rw [hc.2]; simp [Blank]
  have h1 := writes_name hq hn (writes_before
    (blankRun_blanks (hb (width - runeCount (quoted f c.name))) .nil) (writes_sp (writes_complete ht hs h)))
  have h2 := writes_before (blankRun_blanks hi .nil) h1
  have h3 := writes_before (blankRun_comments hi hc) h2
  simpa [padRight, columnToks] using h3

theorem writes_columns (hi : ∀ c ∈ indent, Blank c) (hq : nameQuote f ∈ quotes d) (width : Nat) (tail : Bool)
    {s : Str} {ts : List Token} (h : Writes d false s ts) :
    ∀ (l : List Column), (∀ c ∈ l, ∀ x ∈ c.comments, OneLine x) → (∀ c ∈ l, Quotable (nameQuote f) c.name) →
    (∀ c ∈ l, Complete d c.typeConstraint) →
    Writes d false (fprintColumnsLoop f indent width tail l ++ s)
      (commaSep (l.map (columnToks d (nameQuote f))) ++ (if tail && !l.isEmpty then [sym ',' .COMMA] else []) ++ ts)
  | [], _, _, _ => by simpa [fprintColumnsLoop, commaSep] using h
  | [c], hc, hn, ht => by
    cases tail with
    | false =>
      have := writes_column hi hq width (hc c (by simp)) (hn c (by simp)) (ht c (by simp)) (s := '\n' :: s)
        (by intro x hx; cases hx; decide) (writes_nl h)
      simpa [fprintColumnsLoop, commaSep_single] using this
    | true =>
      have := writes_column hi hq width (hc c (by simp)) (hn c (by simp)) (ht c (by simp))
        (by intro x hx; cases hx; decide)
        (writes_symbol (c := ',') (t := .COMMA) (by decide) (by decide) (writes_nl h))
      simpa [fprintColumnsLoop, commaSep_single] using this
  | c :: c' :: r, hc, hn, ht => by
    have ih := writes_columns hi hq width tail h (c' :: r) (fun x hx => hc x (by simp [hx]))
      (fun x hx => hn x (by simp [hx])) (fun x hx => ht x (by simp [hx]))
    have := writes_column hi hq width (hc c (by simp)) (hn c (by simp)) (ht c (by simp))
      (by intro x hx; cases hx; decide)
      (writes_symbol (c := ',') (t := .COMMA) (by decide) (by decide) (writes_nl ih))
    rw [fprintColumnsLoop]
    simpa [commaSep_cons] using this

/-- Joining two comma separated lists. -/
theorem commaSep_append (a b : List (List Token)) :
    commaSep (a ++ b) = commaSep a ++ (if !a.isEmpty && !b.isEmpty then [sym ',' .COMMA] else []) ++ commaSep b := by
  induction a with
  | nil => simp [commaSep]
  | cons x r ih =>
    cases r with
    | nil =>
      cases b with
      | nil => simp [commaSep]
      | cons y b => simp [commaSep_cons, commaSep_single]
    | cons y r =>
      rw [List.cons_append, List.cons_append, commaSep_cons, commaSep_cons, ← List.cons_append, ih]
      simp

theorem blankRun_source {short : Str → Str} (hs : ∀ x, OneLine (short x)) (file : Str) (line : Nat) :
    BlankRun (fprintSource short file line) := by
  unfold fprintSource
  split
  · refine blankRun_comment (by simp) ?_
    intro c hc
    have hd : ∀ c ∈ (toString line).toList, c ≠ '\n' ∧ c ≠ nul := by
      intro c hc
      have : c.isDigit = true := by
        rw [Nat.toString_eq_repr, Nat.toList_repr] at hc
        exact Nat.isDigit_of_mem_toDigits (b := 10) (by decide) (by decide) hc
      constructor <;> (rintro rfl; revert this; decide)
    simp only [List.mem_append] at hc
    rcases hc with ((hc | hc) | hc) | hc
    · revert c; decide
    · exact hs _ c hc
    · revert c; decide
    · exact hd c hc
  · exact .nil

theorem writes_table {short : Str → Str} (hsh : ∀ x, OneLine (short x)) (hi : ∀ c ∈ indent, Blank c)
    (hq : nameQuote f ∈ quotes d) {t : Table} (ht : TableOk d f t) :
    Writes d false (fprintTable short f indent t) (tableToks d f t) := by
  have hc := blankRun_append (blankRun_source hsh t.sourceFile t.sourceLine)
    (blankRun_comments (indent := []) (by simp) ht.comments)
  unfold fprintTable tableToks
  refine writes_before hc ?_
  split
  · exact .nil
  have hend : Writes d false s%";\n" [sym ';' .SEMICOLON] :=
    writes_symbol (by decide) (by decide) (writes_nl .nil)
  have hopts := writes_options (by intro c hc; cases hc; decide) hend t.options ht.optComments ht.opts
  cases f with
  | spanner =>
    have hkey : Writes d false ((if t.primaryKey.isEmpty then []
       else s%" PRIMARY KEY (" ++ fprintKeyColumns .spanner t.primaryKey ++ s%")" ++
        (if t.options.isEmpty then [] else s%",")) ++ (fprintOptions t.options ++ s%";\n"))
        (commaSep (keyItems '`' t.primaryKey ++ t.options.map (fun o => lex d o.text)) ++ [sym ';' .SEMICOLON]) := by
      unfold keyItems
      by_cases hk : t.primaryKey = []
      · simpa [hk] using hopts
      · by_cases ho : t.options = []
        · have := writes_sp (writes_key hq ht.key hopts)
          simpa [hk, ho, commaSep_single, commaSep, nameQuote, fprintOptions] using this
        · have := writes_sp (writes_key hq ht.key
            (writes_symbol (c := ',') (t := .COMMA) (by decide) (by decide) hopts))
          rw [commaSep_append]
          simpa [hk, ho, commaSep_single, nameQuote] using this
    have hcons := writes_constraints hi
      (writes_symbol (c := ')') (t := .CLOSE_PAREN) (by decide) (by decide) hkey) t.constraints ht.conComments ht.cons
    have hcols := writes_columns hi hq (2 + maxNameLen t.columns) (!t.constraints.isEmpty) hcons t.columns ht.colComments
      ht.names ht.types
    have hopen := writes_complete ht.create (by intro c hc; cases hc; decide)
      (writes_sp (writes_symbol (c := '(') (t := .OPEN_PAREN) (by decide) (by decide) (writes_nl hcols)))
    have e : (!t.constraints.isEmpty && !t.columns.isEmpty) = (!(t.columns.map (columnToks d '`')).isEmpty &&
      !(t.constraints.map (fun c => lex d c.text)).isEmpty) := by
      cases t.constraints <;> cases t.columns <;> rfl
    simp only [nameQuote, e] at hopen
    simp only [commaSep_append (t.columns.map _) (t.constraints.map _), nameQuote]
    simpa [fprintColumns] using hopen
  | _ =>
    have hcons := writes_constraints hi
      (writes_symbol (c := ')') (t := .CLOSE_PAREN) (by decide) (by decide) hopts) t.constraints ht.conComments ht.cons
    have hcomma : Writes d false ((if t.constraints.isEmpty then [] else s%",") ++ s%"\n" ++
        (fprintConstraints indent t.constraints ++ ')' :: (fprintOptions t.options ++ s%";\n")))
        ((if t.constraints.isEmpty then [] else [sym ',' .COMMA]) ++
        (commaSep (t.constraints.map (fun c => lex d c.text)) ++ sym ')' .CLOSE_PAREN ::
        (commaSep (t.options.map (fun c => lex d c.text)) ++ [sym ';' .SEMICOLON]))) := by
      by_cases hc : t.constraints = []
      · rw [hc] at hcons ⊢
        exact writes_nl hcons
      · have e : t.constraints.isEmpty = false := by simpa using hc
        rw [e]
        exact writes_symbol (c := ',') (t := .COMMA) (by decide) (by decide) (writes_nl hcons)
    have hkey := writes_before (blankRun_blanks hi .nil) (writes_key hq ht.key hcomma)
    by_cases hk : t.primaryKey = []
    · have hcols := writes_columns hi hq (2 + maxNameLen t.columns) (!t.constraints.isEmpty) hcons t.columns
        ht.colComments ht.names ht.types
      have hopen := writes_complete ht.create (by intro c hc; cases hc; decide)
        (writes_sp (writes_symbol (c := '(') (t := .OPEN_PAREN) (by decide) (by decide) (writes_nl hcols)))
      simp only [nameQuote, Bool.and_comm (!t.constraints.isEmpty)] at hopen
      simp only [keyItems, hk, if_true, List.append_nil, nameQuote]
      rw [commaSep_append (t.columns.map _) (t.constraints.map _)]
      simpa [fprintColumns, hk] using hopen
    · have hcols := writes_columns hi hq (2 + maxNameLen t.columns) true hkey t.columns
        ht.colComments ht.names ht.types
      have hopen := writes_complete ht.create (by intro c hc; cases hc; decide)
        (writes_sp (writes_symbol (c := '(') (t := .OPEN_PAREN) (by decide) (by decide) (writes_nl hcols)))
      simp only [keyItems, hk, if_false, List.append_assoc, nameQuote]
      rw [commaSep_append (t.columns.map _), commaSep_append [_] (t.constraints.map _)]
      have e : t.primaryKey.isEmpty = false := by simpa using hk
      simpa [fprintColumns, e, commaSep_single, nameQuote] using hopen

theorem writes_stmt {short : Str → Str} (hsh : ∀ x, OneLine (short x)) (hi : ∀ c ∈ indent, Blank c)
    (hq : nameQuote f ∈ quotes d) {s : Gen.Stmt} (ht : StmtOk d f s) :
    Writes d false (fprintStmt short f indent s) (genToks d f s) := by
  cases s with
  | table t => exact writes_nl (writes_table hsh hi hq ht)
  | index i =>
    have h := writes_complete ht.create (by intro c hc; cases hc; decide)
      (writes_symbol (c := ';') (t := .SEMICOLON) (by decide) (by decide) (writes_nl .nil))
    have := writes_before (blankRun_append (blankRun_source hsh i.sourceFile i.sourceLine)
      (blankRun_comments (indent := []) (by simp) ht.comments)) h
    simpa [fprintStmt, fprintIndex, genToks] using writes_nl this

theorem writes_stmts {short : Str → Str} (hsh : ∀ x, OneLine (short x)) (hi : ∀ c ∈ indent, Blank c)
    (hq : nameQuote f ∈ quotes d) {l : List Gen.Stmt} (ht : ∀ s ∈ l, StmtOk d f s) :
    Writes d false (l.map (fprintStmt short f indent)).flatten (l.map (genToks d f)).flatten := by
  induction l with
  | nil => exact .nil
  | cons s r ih =>
    refine (writes_stmt hsh hi hq (ht s (by simp))).append (ih (fun x hx => ht x (by simp [hx]))) ?_
    cases r with
    | nil => intro x y _ hy; simp at hy
    | cons s' r => cases s' <;> exact noMerge_cons (by decide)

/-! ## The text -/

theorem fprintComments_eq (indent : Str) (l : List Str) : fprintComments indent l = commentLines indent l := by
  unfold fprintComments
  induction l with
  | nil => rfl
  | cons c r ih =>
    simp only [List.map_cons, List.flatten_cons, ih, commentLines]
    unfold fprintComment
    split <;> simp

theorem keyColumns_eq (f : Flavor) (l : List Str) :
    fprintKeyColumns f l = join s%", " (l.map (fun k => [nameQuote f] ++ k ++ [nameQuote f])) := by
  induction l with
  | nil => rfl
  | cons k r ih =>
    cases r with
    | nil => simp [fprintKeyColumns, quoted, quote_eq, join]
    | cons k' r =>
      rw [fprintKeyColumns, ih]
      simp [quoted, quote_eq, join]

theorem fprintConstraints_eq (indent : Str) (l : List Clause) :
    fprintConstraints indent l = commaLines (l.map (clauseItem indent)) := by
  induction l with
  | nil => rfl
  | cons k r ih =>
    cases r with
    | nil => simp [fprintConstraints, fprintClause, commaLines, clauseItem, fprintComments_eq]
    | cons k' r =>
      rw [fprintConstraints, ih]
      simp [fprintClause, commaLines, clauseItem, fprintComments_eq]

theorem commaLines_cons (a : Str) (l : List Str) :
    commaLines (a :: l) = a ++ (if l.isEmpty then s%"\n" else s%",\n") ++ commaLines l := by
  cases l <;> simp [commaLines]

theorem columnsLoop_eq (f : Flavor) (indent : Str) (width : Nat) (rest : List Str) (l : List Column) :
    fprintColumnsLoop f indent width (!rest.isEmpty) l ++ commaLines rest =
      commaLines (l.map (fun c => columnItem (nameQuote f) indent
        (width - runeCount ([nameQuote f] ++ c.name ++ [nameQuote f]) + 1) c) ++ rest) := by
  induction l with
  | nil => rfl
  | cons c r ih =>
    rw [fprintColumnsLoop, List.append_assoc, ih, List.map_cons, List.cons_append, commaLines_cons]
    have e : ((r.isEmpty && !!rest.isEmpty) = (List.isEmpty (r.map (fun c => columnItem (nameQuote f) indent
        (width - runeCount ([nameQuote f] ++ c.name ++ [nameQuote f]) + 1) c) ++ rest))) := by
      cases r <;> simp
    rw [e]
    simp [padRight, quoted, quote_eq, columnItem, fprintComments_eq, List.replicate_succ', List.append_assoc]

/-! ## Struct fields -/

theorem replicate_of_all {c : Char} {s : Str} (h : ∀ x ∈ s, x = c) : s = List.replicate s.length c :=
  List.eq_replicate_iff.2 ⟨rfl, h⟩

theorem dropWhile_replicate {c : Char} (n : Nat) {s : Str} (h : s.head? ≠ some c) :
    (List.replicate n c ++ s).dropWhile (· == c) = s := by
  induction n with
  | zero =>
    cases s with
    | nil => rfl
    | cons x r =>
      have : x ≠ c := fun e => h (by simp [e])
      simp [this]
  | succ n ih => rw [List.replicate_succ, List.cons_append, List.dropWhile_cons, if_pos (by simp), ih]

theorem trimC_replicate {c : Char} (m n : Nat) {s : Str} (h1 : s.head? ≠ some c) (h2 : s.getLast? ≠ some c) :
    trimC c (List.replicate m c ++ s ++ List.replicate n c) = s := by
  unfold trimC
  by_cases hs : s = []
  · subst hs
    rw [List.append_nil, List.replicate_append_replicate, ← List.append_nil (List.replicate (m + n) c),
      dropWhile_replicate _ (by simp)]
    rfl
  · have e : (s ++ List.replicate n c).head? ≠ some c := by
      cases s with
      | nil => exact absurd rfl hs
      | cons x r => simpa using h1
    rw [List.append_assoc, dropWhile_replicate _ e, List.reverse_append, List.reverse_replicate,
      dropWhile_replicate _ (by rw [List.head?_reverse]; exact h2), List.reverse_reverse]

theorem isTagKey_iff {c : Char} : isTagKey c = true ↔ 32 < c.toNat ∧ c ≠ ':' ∧ c ≠ '"' ∧ c ≠ Char.ofNat 127 := by
  have h127 : c.toNat = 127 ↔ c = Char.ofNat 127 := by
    constructor
    · intro h
      rw [← h, Char.ofNat_toNat]
    · rintro rfl; rfl
  have h32 : ' ' < c ↔ 32 < c.toNat := Iff.rfl
  simp only [isTagKey, Bool.and_eq_true, decide_eq_true_eq, bne_iff_ne, ne_eq, h127, h32, and_assoc]

theorem takeWhile_span {p : Char → Bool} {k : Str} {c : Char} {r : Str} (hk : ∀ x ∈ k, p x = true) (hc : p c = false) :
    (k ++ c :: r).takeWhile p = k ∧ (k ++ c :: r).dropWhile p = c :: r := by
  induction k with
  | nil => simp [hc]
  | cons x k ih =>
    have hx := hk x (by simp)
    have := ih (fun x hx => hk x (by simp [hx]))
    simp [hx, this]

theorem takeWhile_mem {p : Char → Bool} {l : Str} {x : Char} (h : x ∈ l.takeWhile p) : p x = true := by
  induction l with
  | nil => cases h
  | cons c l ih =>
    rw [List.takeWhile_cons] at h
    split at h
    · rcases List.mem_cons.1 h with rfl | h
      · assumption
      · exact ih h
    · cases h

theorem scanQuoted_body {body : Str} (h : QuotedBody body) (rest : Str) :
    scanQuoted (body ++ '"' :: rest) = some (body, rest) := by
  induction h with
  | nil => rfl
  | @plain c r h1 h2 _ ih =>
    rw [List.cons_append, scanQuoted, ih]
    · rfl
    · exact h1
    · intro _ _ e _; exact h2 e
  | escape _ ih =>
    rw [List.cons_append, List.cons_append, scanQuoted, ih]
    rfl

theorem scanQuoted_some {s body rest : Str} (h : scanQuoted s = some (body, rest)) :
    s = body ++ '"' :: rest ∧ QuotedBody body := by
  induction s using scanQuoted.induct generalizing body with
  | case1 => cases h
  | case2 r =>
    cases h
    exact ⟨rfl, .nil⟩
  | case3 c r ih =>
    rw [scanQuoted, Option.map_eq_some_iff] at h
    obtain ⟨⟨b, t⟩, h1, h2⟩ := h
    cases h2
    obtain ⟨e, hb⟩ := ih h1
    exact ⟨by rw [e]; rfl, .escape hb⟩
  | case4 c r h1 h2 ih =>
    rw [scanQuoted, Option.map_eq_some_iff] at h
    · obtain ⟨⟨b, t⟩, h3, h4⟩ := h
      cases h4
      obtain ⟨e, hb⟩ := ih h3
      refine ⟨by rw [e]; rfl, .plain h1 ?_ hb⟩
      rintro rfl
      cases r with
      | nil => cases h3
      | cons x r => exact h2 x r rfl rfl
    · exact h1
    · exact h2

theorem structTagGet_pair {unq : Str → Option Str} {key : Str} {n : Nat} {s k body rest : Str} (h : PairAt s k body rest) :
    structTagGet unq key (n + 1) s =
      if key = k then (unq ('"' :: body ++ ['"'])).getD [] else structTagGet unq key n rest := by
  obtain ⟨m, rfl, ⟨hk, hk2⟩, hb⟩ := h
  obtain ⟨c, k', rfl⟩ := List.exists_cons_of_ne_nil hk
  have hc : c ≠ ' ' := fun e => absurd (hk2 c (by simp)).1 (by rw [e]; decide)
  have hd : (List.replicate m ' ' ++ (c :: k') ++ ':' :: '"' :: (body ++ '"' :: rest)).dropWhile (· == ' ') =
      (c :: k') ++ ':' :: '"' :: (body ++ '"' :: rest) := by
    rw [List.append_assoc, dropWhile_replicate _ (by simpa using hc)]
  have hs := takeWhile_span (p := isTagKey) (k := c :: k') (c := ':') (r := '"' :: (body ++ '"' :: rest))
    (fun x hx => isTagKey_iff.2 (hk2 x hx)) (by decide)
  simp only [structTagGet, hd, hs.1, hs.2, scanQuoted_body hb]
  rfl

theorem structTagGet_done {unq : Str → Option Str} {key : Str} {n : Nat} {s : Str} (h : ∀ k body rest, ¬ PairAt s k body rest) :
    structTagGet unq key n s = [] := by
  cases n with
  | zero => rfl
  | succ n =>
    simp only [structTagGet]
    split
    · rename_i c k' r h1 h2
      split
      · rfl
      · rename_i body rest h3
        exfalso
        obtain ⟨e, hb⟩ := scanQuoted_some h3
        refine h (c :: k') body rest ⟨(s.takeWhile (· == ' ')).length, ?_, ⟨by simp, ?_⟩, hb⟩
        · rw [← replicate_of_all (fun x hx => by simpa using takeWhile_mem hx)]
          rw [List.append_assoc, ← e, ← h1, ← h2, List.takeWhile_append_dropWhile, List.takeWhile_append_dropWhile]
        · intro x hx
          rw [← h1] at hx
          exact isTagKey_iff.1 (takeWhile_mem hx)
    · rfl

theorem pairAt_length {s k body rest : Str} (h : PairAt s k body rest) : rest.length < s.length := by
  obtain ⟨m, rfl, -, -⟩ := h
  simp; omega

theorem structTagGet_eq {unq : Str → Option Str} {s : Str} {ps : List (Str × Str)} (h : TagPairs unq s ps) (key : Str) (n : Nat)
    (hn : s.length ≤ n) : structTagGet unq key n s = (ps.lookup key).getD [] := by
  induction h generalizing n with
  | done h => rw [structTagGet_done h]; rfl
  | @pair s k body rest ps h _ ih =>
    have := pairAt_length h
    cases n with
    | zero => omega
    | succ n =>
      rw [structTagGet_pair h, ih n (by omega), List.lookup_cons]
      by_cases hk : key = k
      · simp [hk]
      · have : (key == k) = false := by simpa using hk
        rw [if_neg hk, this]

/-- Every tag has pairs. -/
theorem tagPairs_exists (unq : Str → Option Str) : ∀ (n : Nat) (s : Str), s.length ≤ n → ∃ ps, TagPairs unq s ps := by
  intro n
  induction n with
  | zero =>
    intro s hs
    refine ⟨[], .done fun k body rest h => ?_⟩
    have := pairAt_length h
    omega
  | succ n ih =>
    intro s hs
    by_cases h : ∃ k body rest, PairAt s k body rest
    · obtain ⟨k, body, rest, h⟩ := h
      have := pairAt_length h
      obtain ⟨ps, hps⟩ := ih rest (by omega)
      exact ⟨_, .pair h hps⟩
    · exact ⟨[], .done fun k body rest hp => h ⟨k, body, rest, hp⟩⟩

theorem trim_split (c : Char) (s : Str) : ∃ m n inner, s = List.replicate m c ++ inner ++ List.replicate n c ∧
    inner.head? ≠ some c ∧ inner.getLast? ≠ some c := by
  have hd : ∀ l : Str, ∃ m r, l = List.replicate m c ++ r ∧ r.head? ≠ some c := by
    intro l
    induction l with
    | nil => exact ⟨0, [], rfl, by simp⟩
    | cons x l ih =>
      by_cases hx : x = c
      · obtain ⟨m, r, rfl, hr⟩ := ih
        exact ⟨m + 1, r, by rw [hx]; rfl, hr⟩
      · exact ⟨0, x :: l, rfl, by simpa using hx⟩
  obtain ⟨m, r, rfl, hr⟩ := hd s
  obtain ⟨n, i, hi, hl⟩ := hd r.reverse
  have e : r = i.reverse ++ List.replicate n c := by
    rw [← List.reverse_reverse r, hi, List.reverse_append, List.reverse_replicate]
  by_cases hi0 : i = []
  · exact ⟨m, n, [], by simp [e, hi0], by simp, by simp⟩
  refine ⟨m, n, i.reverse, by rw [e, List.append_assoc], ?_, by rw [List.getLast?_reverse]; exact hl⟩
  rw [e, List.head?_append] at hr
  intro h
  rw [h] at hr
  exact hr rfl

theorem fieldPairs_exists (env : Env) {f : Field} (h : f.tag ≠ none) : ∃ ps, FieldPairs env f ps := by
  obtain ⟨l, hl⟩ := Option.ne_none_iff_exists'.1 h
  obtain ⟨m, n, inner, rfl, h1, h2⟩ := trim_split '`' l
  obtain ⟨ps, hps⟩ := tagPairs_exists env.unquote _ inner (Nat.le_refl _)
  exact ⟨ps, m, n, inner, hl, h1, h2, hps⟩

theorem tagGet_eq {tags : Field → List (Str × Str)} {env : Env} {f : Field} {tag key : Str} (hp : FieldPairs env f (tags f))
    (h : f.tag = some tag) : tagGet env tag key = tagValue tags f key := by
  obtain ⟨m, n, inner, h0, h1, h2, hps⟩ := hp
  rw [h] at h0
  cases h0
  unfold tagGet
  rw [trimC_replicate m n h1 h2]
  exact structTagGet_eq hps key _ (Nat.le_refl _)

theorem firstName_ok {f : Field} {n : Str} (h : firstName f = .ok n) : n = f.names.headD [] := by
  unfold firstName at h
  split at h
  · cases h
  · rename_i heq
    cases h
    rw [heq]; rfl

/-- What one field adds. -/
theorem fieldStep_ok {tags : Field → List (Str × Str)} {env : Env} {tn : Str} {t t' : Table} {fd : Field}
    (hp : FieldPairs env fd (tags fd)) (h : fieldStep env tn t fd = .ok t') :
    t'.columns.map (fun c => (c.name, c.typeConstraint)) = t.columns.map (fun c => (c.name, c.typeConstraint)) ++
      (if Included tags env fd then [(columnNameOf tags env fd, tagValue tags fd env.ddlTag)] else []) ∧
    t'.primaryKey = t.primaryKey ++ (if Included tags env fd ∧ TaggedKey tags env fd then [columnNameOf tags env fd] else []) ∧
    t'.createTable = t.createTable ∧ t'.constraints = t.constraints ∧ t'.options = t.options ∧
    t'.sourceFile = t.sourceFile ∧ t'.sourceLine = t.sourceLine := by
  unfold fieldStep at h
  split at h
  · cases h
  rename_i tag htag
  simp only [tagGet_eq hp htag] at h
  by_cases hc : tagValue tags fd env.columnTag = s%"-"
  · rw [if_pos hc] at h
    cases hn : firstName fd <;> rw [hn] at h <;> simp at h
    subst h
    simp [Included, hc]
  rw [if_neg hc] at h
  by_cases ht : tagValue tags fd env.ddlTag = [] ∨ tagValue tags fd env.ddlTag = s%"-"
  · have hI : ¬ Included tags env fd := by
      rintro ⟨_, hI⟩
      apply hI
      rcases ht with ht | ht <;> simp [ht]
    simp only [if_pos ht] at h
    by_cases he : tagValue tags fd env.columnTag = []
    · rw [if_pos he] at h
      cases hn : firstName fd <;> rw [hn] at h <;> simp at h
      subst h
      simp [hI]
    · rw [if_neg he] at h
      simp at h
      subst h
      simp [hI]
  have hI : Included tags env fd := ⟨hc, by simpa using ht⟩
  simp only [if_neg ht] at h
  have key : ∀ (name : Str) (warn : List Str) (w : Res (List Str)), name = columnNameOf tags env fd →
      (do
        let warn2 ← w
        .ok { t with
          primaryKey := if tagValue tags fd env.pkTag = s%"true" ∨ tagValue tags fd env.pkTag = s%"1" then t.primaryKey ++ [name]
            else t.primaryKey
          columns := t.columns ++ [{ comments := warn ++ warn2 ++ trimTailEmpty (trimHasPrefix fd.doc env.ddlTag)
                                     name := name, typeConstraint := tagValue tags fd env.ddlTag }] } : Res Table) = .ok t' →
      t'.columns.map (fun c => (c.name, c.typeConstraint)) = t.columns.map (fun c => (c.name, c.typeConstraint)) ++
        (if Included tags env fd then [(columnNameOf tags env fd, tagValue tags fd env.ddlTag)] else []) ∧
      t'.primaryKey = t.primaryKey ++ (if Included tags env fd ∧ TaggedKey tags env fd then [columnNameOf tags env fd] else []) ∧
      t'.createTable = t.createTable ∧ t'.constraints = t.constraints ∧ t'.options = t.options ∧
      t'.sourceFile = t.sourceFile ∧ t'.sourceLine = t.sourceLine := by
    intro name warn w hname h
    have hK : TaggedKey tags env fd ↔ (tagValue tags fd env.pkTag = s%"true" ∨ tagValue tags fd env.pkTag = s%"1") := by
      simp [TaggedKey]
    cases w <;> simp at h
    subst h
    simp only [hI, true_and, if_true, hK, hname]
    simp only [List.map_append, List.map_cons, List.map_nil, and_true, true_and]
    split <;> simp
  by_cases he : tagValue tags fd env.columnTag = []
  · rw [if_pos he] at h
    cases hn : firstName fd <;> rw [hn] at h <;> try (simp at h; done)
    rename_i n
    simp only [Res.ok_bind] at h
    refine key n _ _ ?_ h
    rw [firstName_ok hn]
    simp [columnNameOf, he]
  · rw [if_neg he] at h
    exact key _ _ _ (by simp [columnNameOf, he]) h

theorem fieldLoop_ok {tags : Field → List (Str × Str)} {env : Env} {tn : Str} {l : List Field} {t t' : Table}
    (hp : ∀ f ∈ l, FieldPairs env f (tags f)) (h : fieldLoop env tn t l = .ok t') :
    t'.columns.map (fun c => (c.name, c.typeConstraint)) = t.columns.map (fun c => (c.name, c.typeConstraint)) ++
      (l.filter (fun x => Included tags env x)).map (fun x => (columnNameOf tags env x, tagValue tags x env.ddlTag)) ∧
    t'.primaryKey = t.primaryKey ++
      (l.filter (fun x => Included tags env x ∧ TaggedKey tags env x)).map (columnNameOf tags env) ∧
    t'.createTable = t.createTable ∧ t'.constraints = t.constraints ∧ t'.options = t.options ∧
    t'.sourceFile = t.sourceFile ∧ t'.sourceLine = t.sourceLine := by
  induction l generalizing t with
  | nil => cases h; simp
  | cons x r ih =>
    rw [fieldLoop] at h
    cases hx : fieldStep env tn t x <;> rw [hx] at h <;> try (simp at h; done)
    rename_i t1
    have h1 := fieldStep_ok (hp x (by simp)) hx
    have h2 := ih (t := t1) (fun f hf => hp f (by simp [hf])) h
    refine ⟨?_, ?_, h2.2.2.1.trans h1.2.2.1, h2.2.2.2.1.trans h1.2.2.2.1, h2.2.2.2.2.1.trans h1.2.2.2.2.1,
      h2.2.2.2.2.2.1.trans h1.2.2.2.2.2.1, h2.2.2.2.2.2.2.trans h1.2.2.2.2.2.2⟩
    · rw [h2.1, h1.1, List.append_assoc, List.filter_cons]
      split <;> simp_all
    · rw [h2.2.1, h1.2.1, List.append_assoc, List.filter_cons]
      by_cases hh : Included tags env x ∧ TaggedKey tags env x <;> simp [hh]

theorem fieldStep_safe {env : Env} {tn : Str} {t : Table} {fd : Field} (h1 : fd.tag ≠ none) (h2 : fd.names ≠ []) :
    ∃ t', fieldStep env tn t fd = .ok t' := by
  obtain ⟨tag, htag⟩ := Option.ne_none_iff_exists'.1 h1
  obtain ⟨n, r, hn⟩ := List.exists_cons_of_ne_nil h2
  unfold fieldStep
  rw [htag]
  have hf : firstName fd = .ok n := by unfold firstName; rw [hn]
  simp only [hf, Res.ok_bind]
  split
  · exact ⟨_, rfl⟩
  split
  all_goals
    simp only [Res.ok_bind]
    split
    · exact ⟨_, rfl⟩
    split <;> exact ⟨_, rfl⟩

theorem fieldLoop_safe {env : Env} {tn : Str} {l : List Field} (h : ∀ f ∈ l, f.tag ≠ none ∧ f.names ≠ []) (t : Table) :
    ∃ t', fieldLoop env tn t l = .ok t' := by
  induction l generalizing t with
  | nil => exact ⟨t, rfl⟩
  | cons x r ih =>
    obtain ⟨t1, h1⟩ := fieldStep_safe (env := env) (tn := tn) (t := t) (h x (by simp)).1 (h x (by simp)).2
    rw [fieldLoop, h1]
    exact ih (fun f hf => h f (by simp [hf])) t1

theorem commentFold (file : Str) (g : List CommentLine) (l : List Str) (t : Table) (idx : List Gen.Stmt) :
    let r := l.foldl (commentStep file g) (t, idx)
    r.1.columns = t.columns ∧ r.1.primaryKey = t.primaryKey ∧
      (r.2.filterMap (fun s => match s with | .table t => some t | .index _ => none)) =
        (idx.filterMap (fun s => match s with | .table t => some t | .index _ => none)) := by
  induction l generalizing t idx with
  | nil => simp
  | cons c r ih =>
    simp only [List.foldl_cons]
    have h : (commentStep file g (t, idx) c).1.columns = t.columns ∧
        (commentStep file g (t, idx) c).1.primaryKey = t.primaryKey ∧
        ((commentStep file g (t, idx) c).2.filterMap (fun s => match s with | .table t => some t | .index _ => none)) =
        (idx.filterMap (fun s => match s with | .table t => some t | .index _ => none)) := by
      simp only [commentStep]
      cases classify c <;> simp
    have := ih (commentStep file g (t, idx) c).1 (commentStep file g (t, idx) c).2
    exact ⟨this.1.trans h.1, this.2.1.trans h.2.1, this.2.2.trans h.2.2⟩

/-- The tables among statements. -/
theorem translateTable_ok {tags : Field → List (Str × Str)} {env : Env} {r : Source} {t : Table} {idx : List Gen.Stmt}
    (hp : ∀ f ∈ r.fields.getD [], FieldPairs env f (tags f)) (h : translateTable env r = .ok (t, idx)) :
    t.columns.map (fun c => (c.name, c.typeConstraint)) =
      ((r.fields.getD []).filter (fun x => Included tags env x)).map (fun x => (columnNameOf tags env x, tagValue tags x env.ddlTag)) ∧
    t.primaryKey = ((r.fields.getD []).filter (fun x => Included tags env x ∧ TaggedKey tags env x)).map (columnNameOf tags env) ∧
    (idx.filterMap (fun s => match s with | .table t => some t | .index _ => none)) = [] := by
  have hf := commentFold r.file r.comments (r.comments.map (fun c => trimComment c.text)) ⟨r.file, r.line, [], [], [], [], [], []⟩ []
  simp only [translateTable] at hf h
  generalize (r.comments.map (fun c => trimComment c.text)).foldl (commentStep r.file r.comments) (⟨r.file, r.line, [], [], [], [], [], []⟩, []) = st at hf h
  have hd : (defaultName env r st.1).columns = [] ∧ (defaultName env r st.1).primaryKey = [] := by
    unfold defaultName
    split
    · split <;> exact ⟨hf.1, hf.2.1⟩
    · exact ⟨hf.1, hf.2.1⟩
  generalize defaultName env r st.1 = t1 at hd h
  generalize hr : structColumns env r t1 = res at h
  cases res with
  | ok t2 =>
    have hw : (addWarnings env r t2).columns = t2.columns ∧ (addWarnings env r t2).primaryKey = t2.primaryKey := by
      unfold addWarnings
      split
      · exact ⟨rfl, rfl⟩
      · split <;> exact ⟨rfl, rfl⟩
    simp only [Res.ok_bind, Res.ok.injEq, Prod.mk.injEq] at h
    obtain ⟨h1, h2⟩ := h
    subst h1 h2
    rw [hw.1, hw.2]
    unfold structColumns at hr
    refine ⟨?_, ?_, hf.2.2⟩
    · split at hr
      · rename_i fields hfields
        rw [hfields] at hp
        have := fieldLoop_ok hp hr
        rw [hfields]
        simpa [hd] using this.1
      · rename_i hfields
        cases hr
        simp [hfields, hd]
    · split at hr
      · rename_i fields hfields
        rw [hfields] at hp
        have := fieldLoop_ok hp hr
        rw [hfields]
        simpa [hd] using this.2.1
      · rename_i hfields
        cases hr
        simp [hfields, hd]
  | _ => simp at h

theorem translateTable_safe {env : Env} {r : Source} (h : ∀ f ∈ r.fields.getD [], f.tag ≠ none ∧ f.names ≠ []) :
    ∃ x, translateTable env r = .ok x := by
  simp only [translateTable]
  cases hfs : r.fields with
  | none =>
    simp only [structColumns, hfs]
    exact ⟨_, rfl⟩
  | some fields =>
    rw [hfs, Option.getD_some] at h
    obtain ⟨t', ht⟩ := fieldLoop_safe (env := env) (tn := r.typeName.getD []) h (defaultName env r
      ((r.comments.map (fun c => trimComment c.text)).foldl (commentStep r.file r.comments) (⟨r.file, r.line, [], [], [], [], [], []⟩, [])).1)
    simp only [structColumns, hfs, ht]
    exact ⟨_, rfl⟩

/-! ## Without comments -/

theorem bare_toks (d : Dialect) (f : Flavor) (s : Gen.Stmt) : genToks d f (bareStmt s) = genToks d f s := by
  cases s with
  | index i => rfl
  | table t =>
    have e : columnToks d (nameQuote f) ∘ (fun c : Column => { c with comments := [] }) = columnToks d (nameQuote f) := rfl
    simp only [bareStmt, genToks, tableToks, bareTable, List.map_map, e]
    cases f <;> rfl

theorem bare_ok {d : Dialect} {f : Flavor} {s : Gen.Stmt} (h : StmtOk d f s) : StmtOk d f (bareStmt s) := by
  cases s with
  | index i => exact ⟨h.create, by simp⟩
  | table t =>
    have h : TableOk d f t := h
    refine TableOk.mk h.create ?_ ?_ h.key ?_ ?_ (by simp [bareTable]) ?_ ?_ ?_ <;>
      (simp only [bareTable, List.mem_map]; rintro _ ⟨c, hc, rfl⟩)
    · exact h.types c hc
    · exact h.names c hc
    · exact h.cons c hc
    · exact h.opts c hc
    all_goals simp

end Ddl
