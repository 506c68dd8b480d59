import Verif.Spec.SessionSmp
/-!
# Specification vocabulary for texts that answer each other
-/

namespace Otrr.Spec
open Otrr

/-- `Volley E S R sS sR text n S' R' sS' sR' text'`: the client of `S` has sent `text` to that of `R`.  It is received, and answered with one
text, which is received and answered by the other client, and so on: after `n` answers, the client of `S'` has sent `text'` to that of `R'`.
No user does anything.  If a client generates a new OTRv4 D-H key pair, then the new public key differs from the old one. -/
inductive Volley (E : Env) (S R : Account) (sS sR : Session) (text : Bytes) : Nat → Account → Account → Session → Session → Bytes → Prop
  | start : Volley E S R sS sR text 0 S R sS sR text
  | answer {n P Q sP sQ t c e t'} : Volley E S R sS sR text n P Q sP sQ t → e = (Op.receive t).run E Q c sQ → OneText e t' →
      FreshAnswer E c sQ P.tag t e → Volley E S R sS sR text (n + 1) Q P e.after sP t'

end Otrr.Spec
