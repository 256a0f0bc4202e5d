import Verif.Spec.Surface
/-
Pattern texts that say with anchors, or with `[^]*` around them, what otherwise the choice between `match`, `starts_with` and `search`
says.

This file does not mention the parser, the trees it builds, or the evaluation machine.
-/
namespace Ctre.Surface

/-- `(?:b)\z` -/
def upToEnd (b : Body) : Body := .alt (.one (.cons (.group b) .none (.one .subjectEnd .none)))

/-- `\A(?:b)` -/
def fromBegin (b : Body) : Body := .alt (.one (.cons .subjectBegin .none (.one (.group b) .none)))

/-- `\A(?:b)\z` -/
def beginToEnd (b : Body) : Body := .alt (.one (.cons .subjectBegin .none (.cons (.group b) .none (.one .subjectEnd .none))))

/-- `^(?:b)$` -/
def caretDollar (b : Body) : Body := .alt (.one (.cons .bol .none (.cons (.group b) .none (.one .eol .none))))

/-- `[^]`, which is any character. -/
def anyCharacter : Atom := .set true []

/-- `(?:b)[^]*` -/
def withRest (b : Body) : Body := .alt (.one (.cons (.group b) .none (.one anyCharacter (.star .greedy))))

/-- `[^]*?(?:b)[^]*` -/
def somewhere (b : Body) : Body :=
  .alt (.one (.cons anyCharacter (.star .lazy) (.cons (.group b) .none (.one anyCharacter (.star .greedy)))))

mutual
/-- `(?m)` does not occur. -/
def Atom.keepsLines : Atom → Bool
  | .mode .multiline => false
  | .cap _ b => b.keepsLines
  | .named _ _ b => b.keepsLines
  | .group b => b.keepsLines
  | .ahead _ b => b.keepsLines
  | .behind _ b => b.keepsLines
  | .atomic b => b.keepsLines
  | _ => true

def Cat.keepsLines : Cat → Bool
  | .one a _ => a.keepsLines
  | .cons a _ l => a.keepsLines && l.keepsLines

def Alt.keepsLines : Alt → Bool
  | .empty => true
  | .one c => c.keepsLines
  | .bar c l => c.keepsLines && l.keepsLines

def Body.keepsLines : Body → Bool
  | .alt l => l.keepsLines
  | .lead l => l.keepsLines
end

end Ctre.Surface
