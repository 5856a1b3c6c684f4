import Verif.Model.StackRun
/-!
# Specification of the tunnel session

One session at a time: it is opened only if there is none, and its partners do not change while it lasts.
-/
namespace LiCan.Spec

/-- what makes up a session: own number, the partner and the connection data -/
structure Session where
  state : TState
  own   : Nat
  prim  : Nat
  sec   : Nat
  typ   : Nat
  delay : Nat
deriving DecidableEq

/-- the session of the tunnel -/
def sessionOf (s : Stack) : Session :=
  ⟨s.tnl.state, s.tnl.own, s.tnl.prim, s.tnl.sec, s.tnl.typ, s.tnl.delay⟩

/-- the changes a session may make -/
inductive SessStep : Session → Session → Prop
  /-- a new session, only if there is none -/
  | opened {a : Session} (h : a.state = .free) (own prim typ delay : Nat) :
      SessStep a ⟨.active, own, prim, own, typ, delay⟩
  /-- the end: all numbers are reset -/
  | closed (a : Session) : SessStep a ⟨.free, 125, 125, 125, a.typ, a.delay⟩
  /-- the slave asks for the end -/
  | shutdown {a : Session} (h : a.state = .active) : SessStep a { a with state := .shutdown }
  /-- the partner does not agree with the end -/
  | resumed {a : Session} (h : a.state = .shutdown) : SessStep a { a with state := .active }

/-- a sequence of such changes -/
inductive SessPath : Session → Session → Prop
  | nil (a : Session) : SessPath a a
  | snoc {a b c : Session} (h : SessPath a b) (g : SessStep b c) : SessPath a c

theorem SessPath.trans {a b c : Session} (h : SessPath a b) (g : SessPath b c) : SessPath a c := by
  induction g with
  | nil => exact h
  | snoc _ k ih => exact .snoc ih k

theorem SessPath.one {a b : Session} (h : SessStep a b) : SessPath a b := .snoc (.nil a) h

theorem SessPath.of_eq {a b : Session} (h : b = a) : SessPath a b := by rw [h]; exact .nil a

end LiCan.Spec
