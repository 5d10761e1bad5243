import Verif.ParserBase

/-! # Properties of returned values -/

namespace Ddl
set_option autoImplicit false

/-- If a value is returned, it satisfies `Q`. -/
def Post {α : Type} (Q : α → Prop) : Res α → Prop
  | .ok a => Q a
  | _ => True

section
variable {α β : Type} {Q : α → Prop} {R : β → Prop} {ts : List Token}

theorem Post.ok {a : α} (h : Q a) : Post Q (.ok a) := h

theorem Post.err {e : Err} : Post Q (.err e : Res α) := trivial

theorem Post.get {r : Res α} {a : α} (h : Post Q r) (e : r = .ok a) : Q a := by rw [e] at h; exact h

theorem Post.bind {r : Res α} {f : α → Res β} (h : Post Q r) (hf : ∀ a, Q a → Post R (f a)) : Post R (r >>= f) := by
  cases r with
  | ok a => exact hf a h
  | err e => exact trivial
  | panic p => exact trivial
  | outOfFuel => exact trivial

theorem Post.imp {Q' : α → Prop} {r : Res α} (h : Post Q r) (hq : ∀ a, Q a → Q' a) : Post Q' r := by
  cases r with
  | ok a => exact hq a h
  | err e => exact trivial
  | panic p => exact trivial
  | outOfFuel => exact trivial

theorem Post.next_bind {f : List Token → Res β} (h : Post R (f ts.tail)) : Post R (next ts >>= f) := by
  unfold Ddl.next; split
  · exact trivial
  · exact h

theorem Post.checkCur_bind {l : List TokType} {f : Unit → Res β} (h : curT ts ∈ l → Post R (f ())) :
    Post R (checkCur l ts >>= f) := by
  unfold checkCur; split
  · exact h (by assumption)
  · exact trivial

theorem Post.checkPeek_bind {l : List TokType} {f : Unit → Res β} (h : peekT ts ∈ l → Post R (f ())) :
    Post R (checkPeek l ts >>= f) := by
  unfold checkPeek; split
  · exact h (by assumption)
  · exact trivial

end

/-- Every token of the list satisfies `P`. -/
def AllTok (P : Token → Prop) (ts : List Token) : Prop := ∀ t ∈ ts, P t

theorem AllTok.tail {P : Token → Prop} {ts : List Token} (h : AllTok P ts) : AllTok P ts.tail :=
  fun t ht => h t (List.mem_of_mem_tail ht)

theorem AllTok.cur {P : Token → Prop} {ts : List Token} (h : AllTok P ts) (he : curT ts ≠ .EOF) : P (cur ts) := by
  cases ts with
  | nil => exact absurd rfl he
  | cons t r => exact h t List.mem_cons_self

theorem AllTok.ident {P : Token → Prop} {ts : List Token} {T : TokType} (h : AllTok P ts) (he : curT ts = T) (hT : T ≠ .EOF) :
    P ⟨T, curL ts⟩ := by
  have := h.cur (by rw [he]; exact hT)
  rw [← he]; exact this

theorem AllTok.cons {P : Token → Prop} {t : Token} {ts : List Token} (h : P t) (h' : AllTok P ts) : AllTok P (t :: ts) := by
  intro x hx
  rcases List.mem_cons.1 hx with rfl | hx
  · exact h
  · exact h' x hx

theorem AllTok.nil {P : Token → Prop} : AllTok P [] := by intro x hx; cases hx

/-- One step through a parser body. -/
syntax "post_step" : tactic
macro_rules
  | `(tactic| post_step) => `(tactic| first
    | exact Post.err
    | exact trivial
    | refine Post.next_bind ?_
    | refine Post.checkCur_bind (fun _ => ?_)
    | refine Post.checkPeek_bind (fun _ => ?_)
    | split)

theorem parseIfNotExists_post {P : Token → Prop} {ts : List Token} (h : AllTok P ts) :
    Post (fun r => AllTok P r.2) (parseIfNotExists ts) := by
  unfold parseIfNotExists
  repeat' post_step
  · exact Post.ok h.tail.tail.tail
  · exact Post.ok h

end Ddl
