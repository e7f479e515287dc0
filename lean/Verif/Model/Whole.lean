import Verif.Model.ReleaseText
import Verif.Model.Poison
/-!
A program that uses the library as README.md:44-58 and src/lib.rs:13-29 show it: it reads the range texts and the card texts and calls
one of the two calculations.  A panic while a text is read ends the program as well.
-/
namespace Pokers

/-- README.md:44-58 with `exact_equity`, in a debug build -/
def WholeDebug (lower : List Char → List Char) (texts : List (List Char)) (boardText deadText : List Char) (nThreads : Nat)
    (cancelled stopped : Bool) (cb : CallbackP) (e : Ended (Except SimulatorError Results)) (calls : List Nat) : Prop :=
  match fromStrings lower texts with
  | .error _ => e = .panicked ∧ calls = []
  | .ok ranges => ExactDebug ranges (getCardMask lower boardText) (getCardMask lower deadText) nThreads cancelled stopped cb e calls

/-- README.md:44-58 with `exact_equity`, in a release build -/
def WholeRelease (lower : List Char → List Char) (texts : List (List Char)) (boardText deadText : List Char) (nThreads : Nat)
    (cancelled stopped : Bool) (cb : CallbackP) (e : Ended (Except SimulatorError Results)) (calls : List Nat) : Prop :=
  match fromStringsR lower texts with
  | .error _ => e = .panicked ∧ calls = []
  | .ok ranges => ExactRelease ranges (getCardMask lower boardText) (getCardMask lower deadText) nThreads cancelled stopped cb e calls

/-- README.md:44-58, in a debug build -/
def WholeApproxDebug (sqrt : ℚ → ℚ) (lower : List Char → List Char) (texts : List (List Char)) (boardText deadText : List Char)
    (nThreads : Nat) (target : ℚ) (cancelled : Bool) (cb : CallbackP) (e : Ended (Except SimulatorError Results)) (calls : List Nat) : Prop :=
  match fromStrings lower texts with
  | .error _ => e = .panicked ∧ calls = []
  | .ok ranges => ApproxDebug sqrt ranges (getCardMask lower boardText) (getCardMask lower deadText) nThreads target cancelled cb e calls

/-- README.md:44-58, in a release build -/
def WholeApproxRelease (lower : List Char → List Char) (texts : List (List Char)) (boardText deadText : List Char) (nThreads : Nat)
    (target : ℚ) (cancelled : Bool) (cb : CallbackP) (e : Ended (Except SimulatorError Results)) (calls : List Nat) : Prop :=
  match fromStringsR lower texts with
  | .error _ => e = .panicked ∧ calls = []
  | .ok ranges => ApproxRelease ranges (getCardMask lower boardText) (getCardMask lower deadText) nThreads target cancelled cb e calls

end Pokers
