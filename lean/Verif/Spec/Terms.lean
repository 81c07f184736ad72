import Verif.Spec.ErrorsV5
/-! Small notions used in the statements of C73, C101, C102, C110 and C111. -/
namespace Props
open Mqtt Spec

/-- `s` occurs in `text` -/
def Occurs (s text : String) : Prop := ∃ pre post, text = pre ++ s ++ post

/-- printed as it is: none of the six special characters, and not in the table -/
def PlainText (esc : Char → Bool) (s : String) : Prop :=
  ∀ c ∈ s.toList, esc c = false ∧ c ≠ '\x00' ∧ c ≠ '\t' ∧ c ≠ '\r' ∧ c ≠ '\n' ∧ c ≠ '\\' ∧ c ≠ '"'


/-- a string `matches` has no special treatment for as a topic: it starts neither with '$' nor with a non-ASCII
character -/
def Ordinary (t : String) : Prop := ∀ c cs, t.toList = c :: cs → c ≠ '$' ∧ c.toNat < 128

/-- the limit to give to `read` for a Maximum Packet Size of `M` bytes in total: `M` minus the size of the fixed
header, but not across a point where the remaining length takes one more byte -/
def limitFor (M : Nat) : Nat :=
  if M ≤ 130 then min (M - 2) 127
  else if M ≤ 16387 then min (M - 3) 16383
  else if M ≤ 2097156 then min (M - 4) 2097151
  else M - 5

/-- `ex` takes exactly the property sections of the grammar from the front of a buffer (of up to the
protocol's maximum of 268435455 bytes), leaving the bytes behind the section, and fails exactly with the
errors of `SecFails` -/
def Extracts {π : Type} (ex : M (Option π)) (kind : Nat → Option Spec.V5.Kind) (dec : List Spec.V5.Property → π) : Prop :=
  ∀ s : Bytes, s.length ≤ maxRemaining →
    (∀ o s', ex s = (.ok o, s') ↔ ∃ sec, s = sec ++ s' ∧ Spec.V5.SetDenotes kind dec sec o)
    ∧ ∀ e, (ex s).1 = .err e ↔ Spec.V5.SecFails kind s e

end Props
