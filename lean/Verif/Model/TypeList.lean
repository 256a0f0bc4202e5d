/-
Operations on type lists.  Source: /repo/include/ctll/list.hpp, /repo/include/ctll/grammars.hpp.

A type list `ctll::list<Ts...>` is the list of its types; types are compared by `=`.  A type `Y` is implicitly convertible to
a type `T` if `conv Y T`.
-/
namespace Ctre.TypeList

variable {α : Type}

/-- `ctll::size` (/repo/include/ctll/list.hpp:15). -/
def size (l : List α) : Nat := l.length

/-- `ctll::empty` (/repo/include/ctll/list.hpp:19-20): the function for `list<>` is not a template and is preferred. -/
def empty : List α → Bool
  | [] => true
  | _ :: _ => false

/-- `ctll::concat` (/repo/include/ctll/list.hpp:24) and `push_front` of a list (/repo/include/ctll/grammars.hpp:42). -/
def concat (a b : List α) : List α := a ++ b

/-- `ctll::push_front` (/repo/include/ctll/list.hpp:28). -/
def pushFront (t : α) (l : List α) : List α := t :: l

/-- `ctll::pop_front` (/repo/include/ctll/list.hpp:32-33). -/
def popFront : List α → List α
  | _ :: l => l
  | [] => []

/-- `ctll::front` with the type to give for the empty list (/repo/include/ctll/list.hpp:47-48). -/
def front (l : List α) (d : α) : α :=
  match l with
  | h :: _ => h
  | [] => d

/-- `ctll::pop_and_get_front` (/repo/include/ctll/list.hpp:36-43). -/
def popAndGetFront (l : List α) (d : α) : α × List α :=
  match l with
  | h :: t => (h, t)
  | [] => (d, [])

/-- `ctll::pop_front_and_push_front` (/repo/include/ctll/grammars.hpp:44-46). -/
def popFrontAndPushFront (t : α) (l : List α) : List α := pushFront t (popFront l)

/-- `ctll::rotate` (/repo/include/ctll/list.hpp:51-57): a left fold, each step puts the next type at the front. -/
def rotate (l : List α) : List α := l.foldl (fun acc t => t :: acc) []

/-- `ctll::exists_in` (/repo/include/ctll/list.hpp:69-70, 74-76): `check(T)` is called if the type converts to `T`. -/
def existsIn (conv : α → α → Bool) (t : α) (l : List α) : Bool := l.foldr (fun y r => conv y t || r) false

/-- `ctll::add_item` (/repo/include/ctll/list.hpp:78-84). -/
def addItem (conv : α → α → Bool) (t : α) (l : List α) : List α := if existsIn conv t l then l else l ++ [t]

/-- `ctll::remove_item` (/repo/include/ctll/list.hpp:60-72, 86-89): `select(T)`, which is not a template, is preferred for the
type `T` itself only; for another type the template fits better than a conversion. -/
def removeItem [DecidableEq α] (t : α) (l : List α) : List α := l.foldl (fun acc y => if y = t then acc else acc ++ [y]) []

end Ctre.TypeList
