import Verif.Model.Ctll

/-
What it means that a text belongs to a context-free grammar, and that a grammar is LL(1), without a machine.
-/
namespace Ctre.Ctll

/-- What happens while a text is read: a character is read or an action is performed. -/
inductive Event (A : Type) where
  | ch (v : Nat)
  | act (a : A)

/-- The characters read. -/
def text {A : Type} : List (Event A) → List Nat
  | [] => []
  | .ch v :: y => v :: text y
  | .act _ :: y => text y

variable {N A σ : Type}

/-- The terminal admits the character. -/
def Sym.Admits : Sym N A → Nat → Prop
  | .term a, v => v = a
  | .anything, _ => True
  | .range a b, v => a ≤ v ∧ v ≤ b
  | .set l, v => v ∈ l
  | .negSet l, v => v ∉ l
  | .nt _, _ => False
  | .act _, _ => False

/-- The parameter of a rule admits the current symbol (`none`: the text is at its end). -/
def Look.Admits : Look → Option Nat → Prop
  | .eps, v => v = none
  | .term a, v => v = some a
  | .anything, v => v ≠ none
  | .range a b, v => ∃ w, v = some w ∧ a ≤ w ∧ w ≤ b
  | .set l, v => ∃ w, v = some w ∧ w ∈ l
  | .negSet l, v => ∃ w, v = some w ∧ w ∉ l

/-- The parameter names one symbol. -/
def Look.Exact : Look → Prop
  | .eps => True
  | .term _ => True
  | _ => False

/-- The terminal with the meaning of the parameter. -/
def Look.sym : Look → Option (Sym N A)
  | .eps => none
  | .term a => some (.term a)
  | .anything => some .anything
  | .range a b => some (.range a b)
  | .set l => some (.set l)
  | .negSet l => some (.negSet l)

/-- The right-hand side a declared rule stands for. -/
def Stands (d : Look × Rule N A) (α : List (Sym N A)) : Prop :=
  match d.2 with
  | .push l => α = l
  | .epsilon => α = []
  | .popInput => ∃ s, d.1.sym = some s ∧ α = [s]
  | .accept => False
  | .reject => False

/-- `x → α` is a production of the grammar. -/
def Grammar.Production (G : Grammar N A) (x : N) (α : List (Sym N A)) : Prop := ∃ d ∈ G.rules x, Stands d α

/-- The symbols derive the events. -/
inductive Derives (G : Grammar N A) : List (Sym N A) → List (Event A) → Prop
  | nil : Derives G [] []
  | ch {s : Sym N A} {v : Nat} {β : List (Sym N A)} {y : List (Event A)} : s.Admits v → Derives G β y →
      Derives G (s :: β) (.ch v :: y)
  | act {a : A} {β : List (Sym N A)} {y : List (Event A)} : Derives G β y → Derives G (.act a :: β) (.act a :: y)
  | nt {x : N} {α β : List (Sym N A)} {y : List (Event A)} : G.Production x α → Derives G (α ++ β) y →
      Derives G (.nt x :: β) y

/-- The text belongs to the language of the grammar. -/
def Grammar.Language (G : Grammar N A) (t : List Nat) : Prop := ∃ y, Derives G [G.start] y ∧ text y = t

/-- The symbols derive a text that begins with the character. -/
def Begins (G : Grammar N A) (α : List (Sym N A)) (v : Nat) : Prop := ∃ y t, Derives G α y ∧ text y = v :: t

/-- The symbols derive the empty text. -/
def Nullable (G : Grammar N A) (α : List (Sym N A)) : Prop := ∃ y, Derives G α y ∧ text y = []

/-- The symbol (`none`: the end of the text) can follow the nonterminal. -/
inductive Follows (G : Grammar N A) : N → Option Nat → Prop
  | start {x : N} : G.start = .nt x → Follows G x none
  | next {x z : N} {α β : List (Sym N A)} {v : Nat} : G.Production x (α ++ .nt z :: β) → Begins G β v → Follows G z (some v)
  | last {x z : N} {α β : List (Sym N A)} {v : Option Nat} : G.Production x (α ++ .nt z :: β) → Nullable G β → Follows G x v →
      Follows G z v

/-- The declared rule `d` is the best of the list for the symbol: it admits it, and every other one does not admit it or is
not exact while `d` is. -/
def Best (l : List (Look × Rule N A)) (v : Option Nat) (d : Look × Rule N A) : Prop :=
  ∃ l1 l2, l = l1 ++ d :: l2 ∧ d.1.Admits v ∧
    ∀ e ∈ l1 ++ l2, ¬ e.1.Admits v ∨ (d.1.Exact ∧ ¬ e.1.Exact)

/-- The grammar is LL(1): for every symbol a right-hand side can begin with, and, if the right-hand side can be empty, for
every symbol that can follow the nonterminal, the best rule stands for this right-hand side. -/
def Grammar.LL1 (G : Grammar N A) : Prop :=
  ∀ x α, G.Production x α →
    (∀ v, Begins G α v → ∃ d, Best (G.rules x) (some v) d ∧ Stands d α) ∧
    (Nullable G α → ∀ v, Follows G x v → ∃ d, Best (G.rules x) v d ∧ Stands d α)

/-- No two rules are equally good for a symbol that they admit. -/
def Grammar.Clear (G : Grammar N A) : Prop :=
  ∀ x v, (∀ d ∈ G.rules x, ¬ d.1.Admits v) ∨ ∃ d, Best (G.rules x) v d

/-- The rules of the grammar do not accept by themselves, and read a character only when there is one. -/
def Grammar.Plain (G : Grammar N A) : Prop :=
  ∀ x, ∀ d ∈ G.rules x, d.2 ≠ .accept ∧ (d.2 = .popInput → d.1 ≠ .eps)

/-- `z` begins a right-hand side of `x`, after symbols that can be empty. -/
def Leads (G : Grammar N A) (z x : N) : Prop :=
  ∃ α β, G.Production x (α ++ .nt z :: β) ∧ Nullable G α

/-- The grammar is not left recursive: there is no infinite chain of nonterminals each of which begins a right-hand side of
the one before. -/
def Grammar.NoLeftRecursion (G : Grammar N A) : Prop := WellFounded (Leads G)

/-- The start symbol and every right-hand side derive some text. -/
def Grammar.Productive (G : Grammar N A) : Prop :=
  (∃ y, Derives G [G.start] y) ∧ ∀ x α, G.Production x α → ∃ y, Derives G α y

/-- The subject after the events, each action with the character read before it; `none`: an action rejects or does not
exist (an action that does not exist is passed over if `ignore`). -/
def perform (ignore : Bool) (S : Selector A σ) : Option Nat → σ → List (Event A) → Option σ
  | _, c, [] => some c
  | _, c, .ch v :: y => perform ignore S (some v) c y
  | p, c, .act a :: y =>
    match S p c a with
    | .ok c' => perform ignore S p c' y
    | .reject => none
    | .ill => if ignore then perform ignore S p c y else none

end Ctre.Ctll
