import Verif.Spec.Doctree
import Verif.Model.Wiki
/-
The words used in the statements about wiki text (C40, C62).
-/
namespace Bglib.Spec
open Bglib Bglib.Doc

/-- The text contains `s`. -/
def Contains (text s : Text) : Prop := ∃ a b, text = a ++ s ++ b

/-- Some line begins with blanks followed by a plus or minus sign. -/
def SignLine (text : Text) : Prop :=
  ∃ a b : Text, ∃ n : Nat, ∃ c : Char, text = a ++ (List.replicate (n + 1) ' ' ++ c :: b) ∧
    (a = [] ∨ a.getLast? = some '\n' ∨ a.getLast? = some '\r') ∧ (c = '+' ∨ c = '-')

/-- A character of an address. -/
def urlChar (c : Char) : Bool :=
  CharSet.mem ⟨false, [('a', 'z'), ('A', 'Z'), ('0', '9'), ('_', '_'), ('~', '~'), ('#', '#'), ('=', '='), ('?', '?'),
    ('.', '.'), ('/', '/'), ('-', '-'), ('&', '&'), ('%', '%')]⟩ c

/-- A web address with `&`. -/
def AmpUrl (u : Text) : Prop :=
  ∃ r : Text, (u = t!"http://" ++ r ∨ u = t!"https://" ++ r) ∧ (∀ c ∈ r, urlChar c = true) ∧ '&' ∈ r

/-- The texts of an analysis. -/
def analysisTexts : Analysis → List Text
  | .cube t rows => t ++ rows.flatMap (·.2)
  | .moves rows => rows.flatMap (·.2)

/-- What comes from outside is fit to stand between tags. -/
structure EnvSafe (env : Env) : Prop where
  now : SafeText env.now
  db : ∀ f, env.db = some f → ∀ p m t, t ∈ analysisTexts (f p m) → SafeText t
  rst : ∀ s t, Tok.text t ∈ env.rst s → SafeText t

/-- The HTML as text, without attributes. -/
def htmlText : List Tok → Text
  | [] => []
  | .opening t :: b => '<' :: t ++ '>' :: htmlText b
  | .closing t :: b => '<' :: '/' :: t ++ '>' :: htmlText b
  | .single t :: b => '<' :: t ++ ' ' :: '/' :: '>' :: htmlText b
  | .text t :: b => t ++ htmlText b

/-- When formatting `text` may fail with which exception. -/
def MayFail (env : Env) (text : Text) : PyErr → Prop
  | .typeError => Contains text t!"[[Position]]" ∨ Contains text t!"[[Analysis]]"
  | .attributeError => Contains text t!"[[TableOfContent" ∨ (Contains text t!"[[Analysis(" ∧ env.db = none)
  | .assertion => Contains text t!"[[Analysis(" ∧ ∃ f p m, env.db = some f ∧ (f p m).numbered = false
  | .keyError => SignLine text
  | _ => False

/-- A web address. -/
def WebUrl (u : Text) : Prop :=
  ∃ r : Text, r ≠ [] ∧ (u = t!"http://" ++ r ∨ u = t!"https://" ++ r) ∧ ∀ c ∈ r, urlChar c = true

/-- A number as written. -/
def Number (d : Text) : Prop := d ≠ [] ∧ ∀ c ∈ d, '0' ≤ c ∧ c ≤ '9'

/-- Letters and digits. -/
def Alnum (n : Text) : Prop :=
  n ≠ [] ∧ ∀ c ∈ n, ('a' ≤ c ∧ c ≤ 'z') ∨ ('A' ≤ c ∧ c ≤ 'Z') ∨ ('0' ≤ c ∧ c ≤ '9')

/-- What `text` links to: the class of the link, and the address. -/
inductive LinkTo (wikipath text : Text) : Text → Text → Prop where
  | entry (d : Text) : Number d → (Contains text (t!"#" ++ d) ∨ Contains text (t!"entry:" ++ d)) →
      LinkTo wikipath text t!"entry" (t!"/entry/" ++ d)
  | query (d : Text) : Number d → (Contains text (t!"{" ++ d ++ t!"}") ∨ Contains text (t!"query:" ++ d)) →
      LinkTo wikipath text t!"query" (t!"/query/" ++ d)
  | «match» (d : Text) : Number d →
      (Contains text (t!"[" ++ d ++ t!"]") ∨ Contains text (t!"match:" ++ d) ∨ Contains text (t!"m" ++ d)) →
      LinkTo wikipath text t!"match" (t!"/match/" ++ d)
  | wiki (n : Text) : Alnum n → Contains text n → LinkTo wikipath text t!"wiki-link" (wikipath ++ n)
  | web (u : Text) : WebUrl u → Contains text u → LinkTo wikipath text t!"ext-link" u

end Bglib.Spec
