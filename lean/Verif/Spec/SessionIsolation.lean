import Verif.Spec.Session
/-!
# Specification vocabulary for the instances of a peer

A peer may be logged in with several clients at once.  Each has its own instance tag, and its own conversation.
-/

namespace Otrr.Spec
open Otrr

/-- The text that the client reads when `payload` arrives: `payload` itself, or the text completed by it if it is a
sound fragment for this client. -/
def Reads (E : Env) (A : Account) (s : Session) (payload text : Bytes) : Prop :=
  matchFragment payload = false ∧ text = payload ∨
  matchFragment payload = true ∧ ∃ f i a, parseFragment E.nd payload = .ok (some f) ∧
    verifyFragment f = true ∧ (f.receiver = 0 ∨ f.receiver = A.tag) ∧
    (lookup s.instances f.sender = some i ∨ lookup s.instances f.sender = .none ∧ i = .new f.sender) ∧
    i.assembler.assemble f = (.ok text, a) ∧ matchFragment text = false

/-- The call is about instance `k`: it names it, or receives a fragment or a message whose sender is `k`.  Offers of a
conversation (query messages and whitespace tags) do not have a sender: they are about instance 0. -/
inductive Touches (E : Env) (A : Account) (s : Session) (k : UInt32) : Op → Prop
  | fragment {payload f} : matchFragment payload = true → parseFragment E.nd payload = .ok (some f) → f.sender = k →
      Touches E A s k (.receive payload)
  | message {payload text m} : Reads E A s payload text → parse E text = .ok (.encoded m) → m.sender = k →
      Touches E A s k (.receive payload)
  | query {payload text vs} : Reads E A s payload text → parse E text = .ok (.query vs) → k = 0 →
      Touches E A s k (.receive payload)
  | tagged {payload text vs content} : Reads E A s payload text → parse E text = .ok (.tagged vs content) → k = 0 →
      Touches E A s k (.receive payload)
  | send (content) : Touches E A s k (.send k content)
  | initiate (v) : Touches E A s k (.initiate v k)
  | close : Touches E A s k (.close k)
  | startSmp (secret question) : Touches E A s k (.startSmp k secret question)
  | abortSmp : Touches E A s k (.abortSmp k)
  | expire (timeout) : Touches E A s k (.expire timeout)

/-- The report names an instance of the peer. -/
def Names : UserMessage → UInt32 → Prop
  | .reset tag, k => tag = k
  | .sessionStarted tag, k => tag = k
  | .confidential tag _ _, k => tag = k
  | .sessionFinished tag _, k => tag = k
  | .smpSucceeded tag, k => tag = k
  | .smpFailed tag, k => tag = k
  | _, _ => False

/-- All the instances that the call is about are in `K`. -/
def Within (E : Env) (A : Account) (s : Session) (K : UInt32 → Prop) (op : Op) : Prop := ∀ k, Touches E A s k op → K k

/-- None of the instances that the call is about is in `K`. -/
def Outside (E : Env) (A : Account) (s : Session) (K : UInt32 → Prop) (op : Op) : Prop := ∀ k, Touches E A s k op → ¬ K k

/-- The two sessions have the same instances in `K`, and these are in the same state. -/
def SameOn (K : UInt32 → Prop) (s s' : Session) : Prop := ∀ k, K k → lookup s'.instances k = lookup s.instances k

/-- The results are the same, except that a text received without encryption may be reported with the warning that it
was not encrypted in one and not in the other, and that a text sent without encryption may have a whitespace tag in one
and not in the other. -/
inductive Alike : Res Answer → Res Answer → Prop
  | same (r) : Alike r r
  | text {content m m'} : m = .plaintext content ∨ m = .warningUnencrypted content →
      m' = .plaintext content ∨ m' = .warningUnencrypted content → Alike (.ok (.user m)) (.ok (.user m'))
  | offer {vs content tagged out out'} : serialize (.tagged vs content) = .ok tagged →
      out = [content] ∨ out = [tagged] → out' = [content] ∨ out' = [tagged] → Alike (.ok (.texts out)) (.ok (.texts out'))

/-- A history as in `Hist` in which every call is either only about instances in `K`, or only about others. -/
inductive Apart (E : Env) (A : Account) (K : UInt32 → Prop) : List Ev → Session → Prop
  | new : Apart E A K [] .new
  | step {h s op c e} : Apart E A K h s → op.run E A c s = e → e.result ≠ .panic →
      Within E A s K op ∨ Outside E A s K op → Apart E A K (h ++ [⟨op, c, e.result, e.sent⟩]) e.after

end Otrr.Spec
