import Verif.Lemmas.MonLink
/-! # The tables and the pointers of the monitor part: lemmas -/
namespace LiCan
namespace Mon
open Node Slave

/-- the members a table overrun or a wild call would show in -/
structure SameTab (m m' : MonVars) : Prop where
  rx : m'.rxSlots = m.rxSlots
  tx : m'.txSlots = m.txSlots
  ub : m'.ub = m.ub
  ro : m'.rxObj = m.rxObj
  to : m'.txObj = m.txObj
  rm : m'.rxMon = m.rxMon
  tm : m'.txMon = m.txMon
  rs : m'.rxMonSync = m.rxMonSync
  ts : m'.txMonSync = m.txMonSync

theorem SameTab.refl (m : MonVars) : SameTab m m := ⟨rfl, rfl, rfl, rfl, rfl, rfl, rfl, rfl, rfl⟩
theorem SameTab.trans {a b c : MonVars} (h : SameTab a b) (g : SameTab b c) : SameTab a c :=
  ⟨g.1.trans h.1, g.2.trans h.2, g.3.trans h.3, g.4.trans h.4, g.5.trans h.5, g.6.trans h.6, g.7.trans h.7, g.8.trans h.8,
    g.9.trans h.9⟩

/-- the conversions of a row are there -/
def ConvOk (m : MonVars) (i : Nat) : Prop :=
  ∀ j, m.rxMonSync i j ≠ .null ∧ m.txMonSync i j ≠ .null ∧ m.rxMon i j ≠ .null ∧ m.txMon i j ≠ .null

/-- nothing has gone wrong and nothing can -/
structure Safe (me : MonEnv) (m : MonVars) : Prop where
  ub  : m.ub = false
  rxL : m.rxSlots.length ≤ 4 * me.maxMod
  txL : m.txSlots.length ≤ 16
  rxO : ∀ i j, m.rxObj i j < me.nMon
  txO : ∀ i j, m.txObj i j < me.nMon
  rxC : ∀ s ∈ m.rxSlots, ConvOk m s.2
  txC : ∀ s ∈ m.txSlots, ConvOk m s.2

variable {me : MonEnv} {P : MonVars → Prop}

theorem ConvOk.same {m m' : MonVars} {i : Nat} (h : ConvOk m i) (t : SameTab m m') : ConvOk m' i := by
  intro j; rw [t.rs, t.ts, t.rm, t.tm]; exact h j

theorem Safe.same {m m' : MonVars} (h : Safe me m) (t : SameTab m m') : Safe me m' :=
  ⟨t.ub.trans h.ub, by rw [t.rx]; exact h.rxL, by rw [t.tx]; exact h.txL, by rw [t.ro]; exact h.rxO, by rw [t.to]; exact h.txO,
    by rw [t.rx]; exact fun s hs => (h.rxC s hs).same t, by rw [t.tx]; exact fun s hs => (h.txC s hs).same t⟩

theorem firstK_ne {k : Nat} {f g : Nat → Conv} {j : Nat} (h1 : f j ≠ .null) (h2 : g j ≠ .null) : firstK k f g j ≠ .null := by
  unfold firstK; split <;> assumption

theorem ConvOk.off {m : MonVars} {i : Nat} (h : ConvOk m i) (tp a b : Nat) : ConvOk (monOff m tp a b) i := by
  intro j
  have := h j
  by_cases hi : i = tp
  · subst hi
    refine ⟨?_, ?_, this.2.2⟩
    · show upd m.rxMonSync i _ i j ≠ _; rw [upd_same]; exact firstK_ne nofun this.1
    · show upd m.txMonSync i _ i j ≠ _; rw [upd_same]; exact firstK_ne nofun this.2.1
  · refine ⟨?_, ?_, this.2.2⟩
    · show upd m.rxMonSync tp _ i j ≠ _; rw [upd_other _ _ hi]; exact this.1
    · show upd m.txMonSync tp _ i j ≠ _; rw [upd_other _ _ hi]; exact this.2.1

theorem ConvOk.on {m : MonVars} {i : Nat} (h : ConvOk m i) (tp a b : Nat) : ConvOk (monOn m tp a b) i := by
  intro j
  have := h j
  by_cases hi : i = tp
  · subst hi
    refine ⟨?_, ?_, this.2.2⟩
    · show upd m.rxMonSync i _ i j ≠ _; rw [upd_same]; exact firstK_ne this.2.2.1 this.1
    · show upd m.txMonSync i _ i j ≠ _; rw [upd_same]; exact firstK_ne this.2.2.2 this.2.1
  · refine ⟨?_, ?_, this.2.2⟩
    · show upd m.rxMonSync tp _ i j ≠ _; rw [upd_other _ _ hi]; exact this.1
    · show upd m.txMonSync tp _ i j ≠ _; rw [upd_other _ _ hi]; exact this.2.1

theorem Safe.off {m : MonVars} (h : Safe me m) (tp a b : Nat) : Safe me (monOff m tp a b) :=
  ⟨h.ub, h.rxL, h.txL, h.rxO, h.txO, fun s hs => (h.rxC s hs).off _ _ _, fun s hs => (h.txC s hs).off _ _ _⟩

theorem Safe.on {m : MonVars} (h : Safe me m) (tp a b : Nat) : Safe me (monOn m tp a b) :=
  ⟨h.ub, h.rxL, h.txL, h.rxO, h.txO, fun s hs => (h.rxC s hs).on _ _ _, fun s hs => (h.txC s hs).on _ _ _⟩

/-- during the registration of row `tp` -/
def SafeAt (me : MonEnv) (tp : Nat) (m : MonVars) : Prop := Safe me m ∧ ConvOk m tp

theorem SafeAt.same {m m' : MonVars} {tp : Nat} (h : SafeAt me tp m) (t : SameTab m m') : SafeAt me tp m' :=
  ⟨h.1.same t, h.2.same t⟩

theorem addRxSlot_safe {m : MonVars} {tp : Nat} (o : Nat) (h : SafeAt me tp m) : SafeAt me tp (addRxSlot me m o tp).1 := by
  unfold addRxSlot
  split
  · next hl =>
    refine ⟨⟨h.1.ub, ?_, h.1.txL, h.1.rxO, h.1.txO, ?_, h.1.txC⟩, h.2⟩
    · show (m.rxSlots ++ [(o, tp)]).length ≤ _
      rw [List.length_append]; exact hl
    · intro s hs
      have hs : s ∈ m.rxSlots ++ [(o, tp)] := hs
      rcases List.mem_append.1 hs with hs | hs
      · exact h.1.rxC s hs
      · rw [List.mem_singleton.1 hs]; exact h.2
  · exact h

theorem addTxSlot_safe {m : MonVars} {tp : Nat} (o : Nat) (h : SafeAt me tp m) : SafeAt me tp (addTxSlot m o tp).1 := by
  unfold addTxSlot
  split
  · next hl =>
    refine ⟨⟨h.1.ub, h.1.rxL, ?_, h.1.rxO, h.1.txO, h.1.rxC, ?_⟩, h.2⟩
    · show (m.txSlots ++ [(o, tp)]).length ≤ _
      rw [List.length_append]; exact hl
    · intro s hs
      have hs : s ∈ m.txSlots ++ [(o, tp)] := hs
      rcases List.mem_append.1 hs with hs | hs
      · exact h.1.txC s hs
      · rw [List.mem_singleton.1 hs]; exact h.2
  · exact h

theorem define_tab (m : MonVars) {o : Nat} (x : MonDef) (ho : o < me.nMon) : SameTab m (define me m o x).1 := by
  unfold define
  rw [if_neg (by omega)]
  dsimp only; split <;> exact ⟨rfl, rfl, rfl, rfl, rfl, rfl, rfl, rfl, rfl⟩

theorem andThen_cl {r : Mon × Err} {f : Mon → Mon × Err} (h : P r.1.m)
    (hf : ∀ d : Mon, P d.m → P (f d).1.m) : P (andThen r f).1.m := by
  unfold andThen; split
  · exact hf _ h
  · exact h

theorem loop_cl {f : Nat → Mon → Mon × Err} (hf : ∀ i (d : Mon), P d.m → P (f i d).1.m) (is : List Nat) :
    ∀ d : Mon, P d.m → P (loop f is d).1.m := by
  induction is with
  | nil => intro d h; exact h
  | cons i is ih => intro d h; exact andThen_cl (hf i d h) ih

theorem mThen_cl {r : MonVars × Err} {f : MonVars → MonVars × Err} (h : P r.1)
    (hf : ∀ m, P m → P (f m).1) : P (mThen r f).1 := by
  unfold mThen; split
  · exact hf _ h
  · exact h

theorem nextFree_lt {m : MonVars} {o : Nat} (h : nextFree me m = some o) : o < me.nMon := by
  unfold nextFree at h
  exact List.mem_range.1 (List.mem_of_find?_eq_some h)

theorem upd2_lt {f : Nat → Nat → Nat} {N tp i o : Nat} (h : ∀ a b, f a b < N) (ho : o < N) :
    ∀ a b, upd f tp (upd (f tp) i o) a b < N := by
  intro a b
  unfold upd
  split
  · dsimp only; split
    · exact ho
    · exact h _ _
  · exact h _ _

theorem setRxMon_safe (tp nr i dlc : Nat) (m : MonVars) (h : SafeAt me tp m) : SafeAt me tp (setRxMon me tp nr i dlc m).1 := by
  unfold setRxMon; split
  · exact h
  · next o ho =>
    refine mThen_cl (SafeAt.same ?_ (define_tab _ _ (nextFree_lt ho))) fun m hm => addRxSlot_safe _ hm
    exact ⟨⟨h.1.ub, h.1.rxL, h.1.txL, upd2_lt h.1.rxO (nextFree_lt ho), h.1.txO, h.1.rxC, h.1.txC⟩, h.2⟩

theorem setTxMon_safe (tp nr i dlc : Nat) (m : MonVars) (h : SafeAt me tp m) : SafeAt me tp (setTxMon me tp nr i dlc m).1 := by
  unfold setTxMon; split
  · exact h
  · next o ho =>
    refine mThen_cl (SafeAt.same ?_ (define_tab _ _ (nextFree_lt ho))) fun m hm => addTxSlot_safe _ hm
    exact ⟨⟨h.1.ub, h.1.rxL, h.1.txL, h.1.rxO, upd2_lt h.1.txO (nextFree_lt ho), h.1.rxC, h.1.txC⟩, h.2⟩

theorem setSilentAwake_safe (d : Mon) (tp st : Nat) (h : Safe me d.m) : Safe me (setSilentAwake me d tp st).1.m := by
  unfold setSilentAwake
  dsimp only
  split
  · split
    · exact h.off ..
    · split
      · exact h.on ..
      · exact h
  · exact h

theorem setRx_safe (d : Mon) (tp nr : Nat) (h : SafeAt me tp d.m) : SafeAt me tp (setRx me d tp nr).1.m := by
  unfold setRx
  generalize hd : (onNode (fun n => (n.setRow tp fun r => { r with rxObjSync := r.rxObj }, E.ok)) d).1 = d1
  have : d1.m = d.m := by rw [← hd]; rfl
  dsimp only
  rw [← this] at h
  refine loop_cl (fun i d hd => andThen_cl ?_ fun d hd => ?_) _ _ h
  · exact hd
  · exact setRxMon_safe _ _ _ _ _ hd

theorem setTx_safe (d : Mon) (tp nr : Nat) (h : SafeAt me tp d.m) : SafeAt me tp (setTx me d tp nr).1.m := by
  unfold setTx
  refine loop_cl (fun i d hd => andThen_cl ?_ fun d hd => ?_) _ _ h
  · exact hd
  · exact setTxMon_safe _ _ _ _ _ hd

theorem finish_safe (d : Mon) (tp idx nr : Nat) (nrs : List Nat) (h : Safe me d.m) : Safe me (finish me d tp idx nr nrs).1.m := by
  rw [finish_eq]
  have h : Safe me (onNode (finHead me.toEnv idx nr nrs) d).1.m := h
  generalize onNode (finHead me.toEnv idx nr nrs) d = r at *
  exact andThen_cl h fun d hd => setSilentAwake_safe _ _ _ hd

theorem tail_safe (tp nr : Nat) (d : Mon) (h : Safe me d.m) : Safe me (tail me tp nr d).1.m := by
  unfold tail
  have h := finish_safe d tp d.s.node.nrMod nr ((List.range (tp + 1)).map fun i => (d.s.node.rows i).nr) h
  generalize finish me d tp d.s.node.nrMod nr ((List.range (tp + 1)).map fun i => (d.s.node.rows i).nr) = r at *
  exact h

theorem fillMon_safe {m : MonVars} (tp : Nat) {mt : MonTpl} (ht : MonTplOk mt) (h : Safe me m) : SafeAt me tp (fillMon m tp mt) := by
  have c : ∀ i, i = tp ∨ ConvOk m i → ConvOk (fillMon m tp mt) i := by
    intro i hi j
    show upd m.rxMonSync tp _ i j ≠ _ ∧ upd m.txMonSync tp _ i j ≠ _ ∧ upd m.rxMon tp _ i j ≠ _ ∧ upd m.txMon tp _ i j ≠ _
    by_cases e : i = tp
    · subst e
      rw [upd_same, upd_same, upd_same, upd_same]
      obtain ⟨a, b, c, d⟩ := ht j
      exact ⟨by assumption, by assumption, by assumption, by assumption⟩
    · rw [upd_other _ _ e, upd_other _ _ e, upd_other _ _ e, upd_other _ _ e]
      rcases hi with hi | hi
      · exact absurd hi e
      · exact hi j
  exact ⟨⟨h.ub, h.rxL, h.txL, h.rxO, h.txO, fun s hs => c _ (.inr (h.rxC s hs)), fun s hs => c _ (.inr (h.txC s hs))⟩, c _ (.inl rfl)⟩

theorem setModule_safe (d : Mon) (tp : Nat) (tpl : Row) {mt : MonTpl} (ht : MonTplOk mt) (nr : Nat) (rx tx : Nat → Nat)
    (h : Safe me d.m) : Safe me (setModule me d tp tpl mt nr rx tx).1.m := by
  rw [setModule_eq]
  generalize hd : ({ s := { d.s with node := d.s.node.fillRow tp tpl (effNr tp nr) rx tx }, m := fillMon d.m tp mt } : Mon) = d1
  have h : SafeAt me tp d1.m := by rw [← hd]; exact fillMon_safe tp ht h
  have h2 := setTx_safe d1 tp (effNr tp nr) h
  generalize setTx me d1 tp (effNr tp nr) = r at *
  unfold andThen
  split
  · have h3 := setRx_safe r.1 tp (effNr tp nr) h2
    dsimp only
    generalize setRx me r.1 tp (effNr tp nr) = q at *
    split
    · exact tail_safe _ _ _ h3.1
    · exact h3.1
  · exact h2.1

theorem addModule_safe (d : Mon) (tpl : Row) {mt : MonTpl} (ht : MonTplOk mt) (nr : Nat) (rx tx : Nat → Nat)
    (h : Safe me d.m) : Safe me (addModule me d tpl mt nr rx tx).1.m := by
  cases hf : (List.range me.maxMod).find? fun i => (d.s.node.rows i).typ = [] with
  | none =>
    have : addModule me d tpl mt nr rx tx = (d, E.maxModules) := by unfold addModule; rw [hf]
    rw [this]; exact h
  | some i =>
    have h1 := setModule_safe d i tpl ht nr rx tx h
    have h2 := setModule_safe d i tpl ht (125 + i) rx tx h
    have hr : ∀ (d : Mon) e, (reportD me d e).m = d.m := fun _ _ => rfl
    unfold addModule
    rw [hf]
    dsimp only
    generalize setModule me d i tpl mt nr rx tx = r at *
    generalize setModule me d i tpl mt (125 + i) rx tx = r2 at *
    split
    · dsimp only; rw [hr]; exact h2
    · dsimp only; rw [hr]; exact h1

/-! ## Number changes -/

theorem changeNr_safe (d : Mon) (typ : List Byte) (nr act : Nat) (h : Safe me d.m) : Safe me (changeNr me d typ nr act).1.m := by
  unfold changeNr
  split
  · exact h
  · next tp _ =>
    generalize hd : (onNode (fun n => (n.setRow tp fun r => { r with nr := nr }, E.ok)) d).1 = d1
    have : d1.m = d.m := by rw [← hd]; rfl
    rw [← this] at h
    dsimp only
    refine andThen_cl (loop_cl (fun i d hd => andThen_cl ?_ fun d hd => ?_) _ _ h) fun d hd =>
      andThen_cl (loop_cl (fun i d hd => andThen_cl ?_ fun d hd => ?_) _ _ hd) fun d hd => finish_safe _ _ _ _ _ hd
    · exact hd
    · exact hd.same (define_tab _ _ (hd.txO _ _))
    · exact hd
    · exact hd.same (define_tab _ _ (hd.rxO _ _))

theorem changeModuleNr_safe (d : Mon) (tp nr : Nat) (h : Safe me d.m) : Safe me (changeModuleNr me d tp nr).1.m := by
  have h1 := changeNr_safe d (d.s.node.rows tp).typ nr (d.s.node.rows tp).nr h
  unfold changeModuleNr
  dsimp only
  generalize changeNr me d (d.s.node.rows tp).typ nr (d.s.node.rows tp).nr = r at *
  split
  · exact h1
  · split
    · exact andThen_cl h1 fun d hd => setSilentAwake_safe _ _ _ hd
    · exact andThen_cl h1 fun d hd => setSilentAwake_safe _ _ _ hd
    · exact h

/-! ## Mode and rate -/

theorem monBaud_tab (l : Link) (m : MonVars) (b : Nat) : SameTab m (monBaud l m b).1 := by
  unfold monBaud; split <;> exact ⟨rfl, rfl, rfl, rfl, rfl, rfl, rfl, rfl, rfl⟩

theorem setBaud1_tab (b : Nat) (r : (Link × MonVars) × Err) (t : Nat) : SameTab r.1.2 (setBaud1 b r t).1.2 := by
  unfold setBaud1
  split
  · dsimp only
    split
    · have := monBaud_tab (hwSetBaud { r.1.1 with cur := t } t).1 r.1.2 t
      split <;> exact this
    · exact ⟨rfl, rfl, rfl, rfl, rfl, rfl, rfl, rfl, rfl⟩
  · exact ⟨rfl, rfl, rfl, rfl, rfl, rfl, rfl, rfl, rfl⟩

theorem setBaud_tab (d : Mon) (b : Nat) : SameTab d.m (setBaud d b).1.m := by
  unfold setBaud
  dsimp only
  have : ∀ (l : List Nat) (r : (Link × MonVars) × Err), SameTab r.1.2 (l.foldl (setBaud1 b) r).1.2 := by
    intro l
    induction l with
    | nil => intro r; exact ⟨rfl, rfl, rfl, rfl, rfl, rfl, rfl, rfl, rfl⟩
    | cons t l ih => intro r; exact (setBaud1_tab b r t).trans (ih _)
  exact this bdrTab ((d.s.link, d.m), E.ok)

theorem changeBaud_tab (d : Mon) (b : Nat) : SameTab d.m (changeBaud me d b).1.m := by
  unfold changeBaud
  dsimp only
  have h1 : ∀ (d : Mon) md, SameTab d.m (setMode me d md).1.m := fun _ _ => ⟨rfl, rfl, rfl, rfl, rfl, rfl, rfl, rfl, rfl⟩
  have h0 := h1 d .stopped
  generalize setMode me d .stopped = r at *
  have h2 : SameTab d.m (if r.2 = E.ok then setBaud r.1 b else r).1.m := by
    split
    · exact h0.trans (setBaud_tab ..)
    · exact h0
  generalize (if r.2 = E.ok then setBaud r.1 b else r) = q at *
  split
  · exact h2.trans (h1 _ _)
  · exact h2

/-! ## Messages -/

theorem sysMsg_safe {d : Mon} {nr dlc : Nat} {src : List Byte} {r : Mon × Err}
    (h : Safe me d.m) (hs : sysMsg me d nr dlc src = some r) : Safe me r.1.m := by
  have lift : ∀ r, ((Slave.sysMsg me.toEnv d.s nr dlc src).map fun r => (({ d with s := r.1 } : Mon), r.2)) = some r → Safe me r.1.m := by
    intro r hr
    obtain ⟨x, -, rfl⟩ := Option.map_eq_some_iff.1 hr
    exact h
  unfold sysMsg at hs
  dsimp only at hs
  split at hs
  · exact lift r hs
  · split at hs
    · exact lift r hs
    · split at hs
      · exact lift r hs
      · split at hs
        · cases hs; exact h.same (changeBaud_tab ..)
        · split at hs
          · split at hs
            · cases hs; exact setSilentAwake_safe _ _ _ h
            · cases hs; exact h
          · split at hs
            · split at hs
              · cases hs; exact changeModuleNr_safe _ _ _ h
              · exact lift r hs
            · exact lift r hs

theorem checkModule_tab (d : Mon) (now tp : Nat) : SameTab d.m (checkModule d now tp).1.m := by
  unfold checkModule
  repeat' split
  all_goals exact ⟨rfl, rfl, rfl, rfl, rfl, rfl, rfl, rfl, rfl⟩

theorem checkImage_tab (d : Mon) (now : Nat) : SameTab d.m (checkImage me d now).m := by
  have step : ∀ (r : Mon × Bool) i, SameTab r.1.m (checkStep now r i).1.m := by
    intro r i
    have := checkModule_tab r.1 now i
    unfold checkStep
    dsimp only
    split <;> exact this
  have fold : ∀ (l : List Nat) (r : Mon × Bool), SameTab r.1.m (l.foldl (checkStep now) r).1.m := by
    intro l
    induction l with
    | nil => intro r; exact ⟨rfl, rfl, rfl, rfl, rfl, rfl, rfl, rfl, rfl⟩
    | cons t l ih => intro r; exact (step r t).trans (ih _)
  have h := fold (List.range d.s.node.nrMod) (d, true)
  unfold checkImage
  generalize (List.range d.s.node.nrMod).foldl (checkStep now) (d, true) = r at *
  split
  · split
    · exact ⟨rfl, rfl, rfl, rfl, rfl, rfl, rfl, rfl, rfl⟩
    · split
      · exact ⟨rfl, rfl, rfl, rfl, rfl, rfl, rfl, rfl, rfl⟩
      · split
        · exact ⟨rfl, rfl, rfl, rfl, rfl, rfl, rfl, rfl, rfl⟩
        · split
          · exact ⟨rfl, rfl, rfl, rfl, rfl, rfl, rfl, rfl, rfl⟩
          · dsimp only
            split <;> exact h.trans ⟨rfl, rfl, rfl, rfl, rfl, rfl, rfl, rfl, rfl⟩
  · exact ⟨rfl, rfl, rfl, rfl, rfl, rfl, rfl, rfl, rfl⟩

theorem processRequest_tab {d d' : Mon} {now dlc : Nat} (h : processRequest me d now dlc = some d') : SameTab d.m d'.m := by
  have k := checkImage_tab (me := me) { d with s := reqRx d.s } now
  obtain ⟨-, -, -, -, hm, -⟩ := request_spec h
  rw [hm]
  exact k.trans ⟨rfl, rfl, rfl, rfl, rfl, rfl, rfl, rfl, rfl⟩

theorem handlerMain_safe {d d' : Mon} {now obj dlc id : Nat} {data : List Byte}
    (h : Safe me d.m) (hs : handlerMain me d now obj dlc id data = some d') : Safe me d'.m := by
  rw [handlerMain_eq] at hs
  dsimp only at hs
  have h1 : Safe me ({ d with s := dataPart me.toEnv d.s obj dlc id data } : Mon).m := h
  generalize ({ d with s := dataPart me.toEnv d.s obj dlc id data } : Mon) = d1 at *
  have h2 : ∀ x : Mon, (if obj = 0 then processRequest me d1 now dlc else some d1) = some x → Safe me x.m := by
    intro x hx
    split at hx
    · exact h1.same (processRequest_tab hx)
    · cases hx; exact h1
  generalize (if obj = 0 then processRequest me d1 now dlc else some d1) = o at *
  split at hs
  · obtain ⟨x, hx, hy⟩ := Option.bind_eq_some_iff.1 hs
    obtain ⟨⟨y, e⟩, hz, rfl⟩ := Option.map_eq_some_iff.1 hy
    have := sysMsg_safe (h2 x hx) hz
    exact this
  · exact h2 _ hs

theorem slotOf_mem {l : List (Nat × Nat)} {o tp : Nat} (h : slotOf l o = some tp) : ∃ k, (k, tp) ∈ l := by
  unfold slotOf at h
  obtain ⟨⟨k, t⟩, hk, rfl⟩ := Option.map_eq_some_iff.1 h
  exact ⟨k, List.mem_of_find?_eq_some hk⟩

theorem callMon_some (c : Conv) (can old : List Byte) (dlc : Nat) (h : c ≠ .null) : ∃ r, callMon me c can old dlc = some r := by
  cases c with
  | null => exact absurd rfl h
  | dummy => exact ⟨_, rfl⟩
  | app k => exact ⟨_, rfl⟩

theorem rxDataMon_tab {d : Mon} {tp id : Nat} (dlc : Nat) (data : List Byte) (h : ∀ j, d.m.rxMonSync tp j ≠ .null) :
    SameTab d.m (rxDataMon me d tp id dlc data).1.m := by
  unfold rxDataMon
  dsimp only
  obtain ⟨r, hr⟩ := callMon_some (me := me) (d.m.rxMonSync tp (syncObjOfId id)) data (d.m.monRx tp (syncObjOfId id)) dlc (h _)
  rw [hr]
  split
  · exact ⟨rfl, rfl, rfl, rfl, rfl, rfl, rfl, rfl, rfl⟩
  · split
    · exact ⟨rfl, rfl, rfl, rfl, rfl, rfl, rfl, rfl, rfl⟩
    · exact ⟨rfl, rfl, rfl, rfl, rfl, rfl, rfl, rfl, rfl⟩

theorem txDataMon_tab {d : Mon} {tp id : Nat} (dlc : Nat) (data : List Byte) (h : ∀ j, d.m.txMonSync tp j ≠ .null) :
    SameTab d.m (txDataMon me d tp id dlc data).1.m := by
  unfold txDataMon
  dsimp only
  obtain ⟨r, hr⟩ := callMon_some (me := me) (d.m.txMonSync tp (syncObjOfId id)) data me.tmp dlc (h _)
  rw [hr]
  split
  · exact ⟨rfl, rfl, rfl, rfl, rfl, rfl, rfl, rfl, rfl⟩
  · split
    · exact ⟨rfl, rfl, rfl, rfl, rfl, rfl, rfl, rfl, rfl⟩
    · dsimp only
      split
      · exact ⟨rfl, rfl, rfl, rfl, rfl, rfl, rfl, rfl, rfl⟩
      · exact ⟨rfl, rfl, rfl, rfl, rfl, rfl, rfl, rfl, rfl⟩

/-- a frame on the monitor, all conversions present -/
theorem handlerMon_tab {d : Mon} (w : Safe me d.m) (now obj dlc id : Nat) (data : List Byte) :
    SameTab d.m (handlerMon me d now obj dlc id data).m := by
  rw [handlerMon_eq]
  have k1 := monRxPart_kept me d obj dlc id data
  have t1 : SameTab d.m (monRxPart me d obj dlc id data).m := by
    unfold monRxPart
    split
    · split
      · next tp htp =>
        obtain ⟨k, hk⟩ := slotOf_mem htp
        exact rxDataMon_tab _ _ fun j => (w.rxC _ hk j).1
      · exact ⟨rfl, rfl, rfl, rfl, rfl, rfl, rfl, rfl, rfl⟩
    · exact ⟨rfl, rfl, rfl, rfl, rfl, rfl, rfl, rfl, rfl⟩
  generalize monRxPart me d obj dlc id data = d1 at *
  have t2 : SameTab d1.m (monTxPart me d1 obj dlc id data).m := by
    unfold monTxPart
    split
    · split
      · next tp htp =>
        obtain ⟨k, hk⟩ := slotOf_mem htp
        rw [k1.wire.tx] at hk
        exact txDataMon_tab _ _ fun j => by rw [k1.txMonSync]; exact (w.txC _ hk j).2.1
      · exact ⟨rfl, rfl, rfl, rfl, rfl, rfl, rfl, rfl, rfl⟩
    · exact ⟨rfl, rfl, rfl, rfl, rfl, rfl, rfl, rfl, rfl⟩
  generalize monTxPart me d1 obj dlc id data = d2 at *
  dsimp only
  split
  · exact (t1.trans t2).trans ((checkImage_tab d2 now).trans ⟨rfl, rfl, rfl, rfl, rfl, rfl, rfl, rfl, rfl⟩)
  · exact t1.trans t2

theorem lift_m {d d' : Mon} {x : In} (h : Mon.lift me d x = some d') : d'.m = d.m := by
  unfold Mon.lift at h
  obtain ⟨s, -, rfl⟩ := Option.map_eq_some_iff.1 h
  rfl

/-- one input -/
theorem step_safe {d d' : Mon} {i : MIn} (ht : ∀ tpl mt nr rx tx, i = .add tpl mt nr rx tx → MonTplOk mt)
    (h : Safe me d.m) (hs : Mon.step me d i = some d') : Safe me d'.m := by
  cases i with
  | main now obj dlc id data =>
    exact handlerMain_safe h hs
  | mon now obj dlc id data => cases hs; exact h.same (handlerMon_tab h ..)
  | write p v => cases hs; exact h
  | add tpl mt nr rx tx => cases hs; exact addModule_safe _ _ (ht _ _ _ _ _ rfl) _ _ _ h
  | silentAwakeBy typ nr st =>
    unfold Mon.step at hs
    dsimp only at hs
    split at hs
    · cases hs; exact setSilentAwake_safe _ _ _ h
    · cases hs; exact h
  | setActive typ =>
    unfold Mon.step at hs
    dsimp only at hs
    split at hs
    · cases hs; exact h.on ..
    · cases hs; exact h
  | setCritical typ =>
    unfold Mon.step at hs
    dsimp only at hs
    split at hs
    · cases hs; exact h.off ..
    · cases hs; exact h
  | changeNr typ nr act =>
    cases hs
    exact changeNr_safe _ _ _ _ h
  | setMode m => cases hs; exact h.same ⟨rfl, rfl, rfl, rfl, rfl, rfl, rfl, rfl, rfl⟩
  | setBaud b => cases hs; exact h.same (setBaud_tab ..)
  | trigger now => rw [lift_m hs]; exact h
  | setCycle t => rw [lift_m hs]; exact h
  | allCb f => rw [lift_m hs]; exact h
  | validCb typ nr f => rw [lift_m hs]; exact h
  | invalidCb typ nr f => rw [lift_m hs]; exact h
  | reqCb typ nr f => rw [lift_m hs]; exact h

/-- the initialisation -/
theorem init_tab (d : Mon) (baud : Nat) (h1 : 1 < me.nMon) (h4 : 4 < me.nMon) : SameTab d.m (Mon.init me d baud).1.m := by
  have key : ∀ (r : Mon × Err) (f : Mon → Mon × Err), SameTab d.m r.1.m → (∀ x : Mon, SameTab d.m x.m → SameTab d.m (f x).1.m) →
      SameTab d.m (andThen r f).1.m := fun r f a b => andThen_cl (P := SameTab d.m) a b
  unfold Mon.init
  dsimp only
  refine key _ _ (key _ _ (key _ _ (key _ _ (key _ _ (key _ _ (key _ _ ?_ ?_) ?_) ?_) ?_) ?_) ?_) ?_
  · exact ⟨rfl, rfl, rfl, rfl, rfl, rfl, rfl, rfl, rfl⟩
  · intro x hx; exact hx.trans (define_tab _ _ h1)
  · intro x hx; exact hx.trans (define_tab _ _ h4)
  · intro x hx; exact hx
  · intro x hx; exact hx
  · intro x hx; exact hx
  · intro x hx; exact hx
  · intro x hx; exact hx.trans ⟨rfl, rfl, rfl, rfl, rfl, rfl, rfl, rfl, rfl⟩

end Mon
end LiCan
