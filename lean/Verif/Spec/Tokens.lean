import Verif.Token

/-! # Vocabulary about token sequences and about lists with names -/

namespace Ddl.Spec

/-- Somewhere in `ts` a token whose type is in `A` is directly followed by one whose type is in `B`. -/
def Follows (ts : List Token) (A B : List TokType) : Prop :=
  ∃ l x y r, ts = l ++ x :: y :: r ∧ x.type ∈ A ∧ y.type ∈ B

/-- The keywords that name a PostgreSQL data type. -/
def pgTypes : List TokType :=
  [.BOOLEAN, .SMALLINT, .INTEGER, .BIGINT, .DECIMAL, .NUMERIC, .REAL, .DOUBLE, .SMALLSERIAL, .SERIAL, .BIGSERIAL,
    .UUID, .JSONB, .CHARACTER, .VARYING, .TEXT, .TIMESTAMP, .TIMESTAMPTZ]

/-- The keywords that name a CockroachDB data type. -/
def crdbTypes : List TokType :=
  [.BOOL, .INT2, .INT4, .INT8, .DECIMAL, .NUMERIC, .REAL, .DOUBLE, .FLOAT4, .FLOAT8, .SMALLSERIAL, .SERIAL, .BIGSERIAL,
    .UUID, .JSONB, .CHARACTER, .VARYING, .VARCHAR, .STRING, .TIMESTAMP, .TIMESTAMPTZ]

/-- The first occurrence of each element, in order. -/
def firsts {α : Type} [DecidableEq α] : List α → List α
  | [] => []
  | a :: l => a :: (firsts l).filter (fun x => x ≠ a)

/-- `c` is the last element of `ws` with its name. -/
def LastNamed {α β : Type} (name : α → β) (ws : List α) (c : α) : Prop :=
  ∃ pre post, ws = pre ++ c :: post ∧ ∀ x ∈ post, name x ≠ name c

end Ddl.Spec
