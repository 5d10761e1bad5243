import Verif.Spec.ApplyGo
import Verif.Lemmas.Generate

/-!
# What a directory of annotated Go sources is resolved to
-/

namespace Ddl
open Spec Gen Cmd
set_option autoImplicit false

theorem annotated_resolve {w : World} {language dialect dir : Str} {d : Dialect} {f : Flavor} {g : DDL} (h : Annotated w language dir d f g)
    (hd : (dialect, d, f) ∈ [(s%"postgres", .postgres, .postgres), (s%"cockroachdb", .cockroachdb, .postgres), (s%"mysql", .mysql, .mysql),
      (s%"spanner", .spanner, .spanner)]) :
    resolve w language dialect dir = .ok (fprint w.short f g) := by
  have hg : genText w dialect g = .ok (fprint w.short f g) := by
    simp only [List.mem_cons, Prod.mk.injEq, List.not_mem_nil, or_false] at hd
    rcases hd with ⟨e, rfl, rfl⟩ | ⟨e, rfl, rfl⟩ | ⟨e, rfl, rfl⟩ | ⟨e, rfl, rfl⟩ <;> rw [e] <;> rfl
  simp [resolve, h.notFile, h.found, generateText, parseLang, h.go, h.parsed, hg]

theorem annotated_lex {w : World} {language dir : Str} {d : Dialect} {f : Flavor} {g : DDL} (h : Annotated w language dir d f g)
    (hq : nameQuote f ∈ quotes d) : lex d (fprint w.short f g) = lex d (handFile f g.stmts) :=
  lex_generated h.lines hq h.indent h.header h.named h.complete

end Ddl
