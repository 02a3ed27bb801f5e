import Verif.Spec.Typed

/-! # The way from the keys to the host

Two bounded queues with one output per pass.  Nothing here depends on keys, keymaps
or modifiers: the input is what was typed and printed in each pass. -/

namespace Asdf.Spec

/-- The codes the host receives, in order; `true` marks message characters. -/
def hostSees : List Event → List (Bool × Code)
  | [] => []
  | .delayMs _ :: .send c :: es => (true, c) :: hostSees es
  | .send c :: es => (false, c) :: hostSees es
  | _ :: es => hostSees es

/-- What is waiting, what the host has received, and what was lost. -/
structure Line where
  keys : List Code := []
  msgs : List Code := []
  host : List (Bool × Code) := []
  lostKeys : List Code := []
  lostMsgs : List Code := []
  deriving DecidableEq, Repr

/-- One item goes to the host: a message character if one is waiting, else a
keystroke.  Keystroke 0xA0 disappears. -/
def Line.send (q : Line) : Line :=
  match q.msgs, q.keys with
  | m :: ms, _ => { q with msgs := ms, host := q.host ++ [(true, m)] }
  | [], c :: cs =>
    { q with keys := cs, host := q.host ++ if c.toNat < 0xA0 then [(false, c)] else [] }
  | [], [] => q

/-- The codes `t` are typed and the characters `m` are printed: the first that fit are
queued, the others are lost. -/
def Line.add (q : Line) (t m : List Code) : Line :=
  { q with
    keys := q.keys ++ t.take (16 - q.keys.length)
    msgs := q.msgs ++ m.take (128 - q.msgs.length)
    lostKeys := q.lostKeys ++ t.drop (16 - q.keys.length)
    lostMsgs := q.lostMsgs ++ m.drop (128 - q.msgs.length) }

/-- All passes: in each, one item is sent, then the new ones are added. -/
def channel (ts ms : List (List Code)) : Line :=
  (ts.zip ms).foldl (fun q x => q.send.add x.1 x.2) {}

end Asdf.Spec
