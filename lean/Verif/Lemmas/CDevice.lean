import Verif.Lemmas.CRun

/-! # `asdf_physical.c` and `asdf_virtual.c` -/

namespace Asdf.C

/-- The part of `Fits` about the outputs. -/
structure DevFits (d : Dev) : Prop where
  phys : d.phys.length = 13
  next : ∀ e ∈ d.phys, e.next < 256
  virt : d.virt.length = 12
  vphys : ∀ e ∈ d.virt, e.phys < 256

variable {x : Extra} {s : State}

theorem Fits.dev (F : Fits x s) : DevFits s.dev := ⟨F.phys, F.next, F.virt, F.vphys⟩

theorem Fits.setDev (F : Fits x s) {d : Dev} (h : DevFits d) : Fits x { s with dev := d } :=
  { F with phys := h.phys, next := h.next, virt := h.virt, vphys := h.vphys }

theorem run_handler {p : Nat} (h : p < 13) : ∃ f, handler p = .fn f ∧
    ∀ (t : Ity) (v : Int) (S : St Io) (w n : Nat),
      run prog w (n + 1) f [.int t v] S = .ok .unit (S.emit (.out p (UInt8.ofInt v))) := by
  match p, h with
  | 0, _ | 1, _ | 2, _ | 3, _ | 4, _ | 5, _ | 6, _ | 7, _ | 8, _ | 9, _ | 10, _ | 11, _ | 12, _ =>
    exact ⟨_, rfl, fun t v S w n => by rw [run_ext rfl]; rfl⟩

theorem physSet_eq_ok {d d' : Dev} {p : Nat} {v : UInt8} : physSet d p v = .ok d' ↔
    ∃ e, d.phys[p]? = some e ∧
      d' = { d with trace := d.trace ++ [.out p v], phys := d.phys.set p { e with shadow := v } } := by
  simp only [physSet, bind_eq_ok, rd_eq_ok, wr_eq_ok]
  constructor
  · rintro ⟨e, he, t, ⟨-, rfl⟩, h⟩
    cases h
    exact ⟨e, he, rfl⟩
  · rintro ⟨e, he, rfl⟩
    exact ⟨e, he, _, ⟨(List.getElem?_eq_some_iff.1 he).1, rfl⟩, rfl⟩

section
variable (F : Fits x s)
include F

theorem phys_lt {p : Nat} {e : PhysEntry} (he : s.dev.phys[p]? = some e) : p < 13 :=
  F.phys ▸ (List.getElem?_eq_some_iff.1 he).1

theorem c_physical_set {p : Nat} {v : UInt8} (t t' : Ity) {d : Dev} (h : physSet s.dev p v = .ok d)
    (env ps keys) (w n : Nat) :
    run prog w (n + 2) .asdf_physical_set [.int t p, .int t' v.toNat] (K x s env ps keys) =
      .ok .unit (K x { s with dev := d } env ps keys) := by
  obtain ⟨e, he, rfl⟩ := physSet_eq_ok.1 h
  have hp := phys_lt F he
  obtain ⟨f, hf, hr⟩ := run_handler hp
  cfn fn_asdf_physical_set
  cgo [Int.toNat_natCast, he, hf, hr, State.emit, Dev.emit]

theorem c_physical_on {p : Nat} (t : Ity) {d : Dev} (h : physOn s.dev p = .ok d)
    (env ps keys) (w n : Nat) :
    run prog w (n + 2) .asdf_physical_on [.int t p] (K x s env ps keys) =
      .ok .unit (K x { s with dev := d } env ps keys) := by
  obtain ⟨e, he, rfl⟩ := physSet_eq_ok.1 h
  have hp := phys_lt F he
  obtain ⟨f, hf, hr⟩ := run_handler hp
  cfn fn_asdf_physical_on
  cgo [Int.toNat_natCast, he, hf, hr, State.emit, Dev.emit]
  rfl

theorem c_physical_off {p : Nat} (t : Ity) {d : Dev} (h : physOff s.dev p = .ok d)
    (env ps keys) (w n : Nat) :
    run prog w (n + 2) .asdf_physical_off [.int t p] (K x s env ps keys) =
      .ok .unit (K x { s with dev := d } env ps keys) := by
  obtain ⟨e, he, rfl⟩ := physSet_eq_ok.1 h
  have hp := phys_lt F he
  obtain ⟨f, hf, hr⟩ := run_handler hp
  cfn fn_asdf_physical_off
  cgo [Int.toNat_natCast, he, hf, hr, State.emit, Dev.emit]
  rfl

theorem c_physical_assert {p : Nat} (t : Ity) {d : Dev} (h : physAssert s.dev p = .ok d)
    (env ps keys) (w n : Nat) :
    run prog w (n + 2) .asdf_physical_assert [.int t p] (K x s env ps keys) =
      .ok .unit (K x { s with dev := d } env ps keys) := by
  simp only [physAssert, bind_eq_ok, rd_eq_ok] at h
  obtain ⟨e, he, h⟩ := h
  cases h
  have hp := phys_lt F he
  obtain ⟨f, hf, hr⟩ := run_handler hp
  cfn fn_asdf_physical_assert
  cgo [Int.toNat_natCast, he, hf, hr, State.emit, Dev.emit]

theorem c_physical_toggle {p : Nat} (t : Ity) {d : Dev} (h : physToggle s.dev p = .ok d)
    (env ps keys) (w n : Nat) :
    run prog w (n + 3) .asdf_physical_toggle [.int t p] (K x s env ps keys) =
      .ok .unit (K x { s with dev := d } env ps keys) := by
  simp only [physToggle, bind_eq_ok, rd_eq_ok] at h
  obtain ⟨e, he, h⟩ := h
  have hp := phys_lt F he
  have hu : (e.shadow.toNat : Int) = 0 ↔ e.shadow = 0 := u8_eq _ 0
  cfn fn_asdf_physical_toggle
  by_cases hz : e.shadow = 0
  · have c := c_physical_set F .u8 .i16 (v := 1) (by simpa [cNot, hz] using h)
    cgo [Int.toNat_natCast, he, hu, hz]
    exact congrArg (Out.bind · _) (congrArg (Out.bind · _) (c _ _ _ _ _))
  · have c := c_physical_set F .u8 .i16 (v := 0) (by simpa [cNot, hz] using h)
    cgo [Int.toNat_natCast, he, hu, hz]
    exact congrArg (Out.bind · _) (congrArg (Out.bind · _) (c _ _ _ _ _))

theorem fits_physSet {p : Nat} {v : UInt8} {d : Dev} (h : physSet s.dev p v = .ok d) : DevFits d := by
  obtain ⟨e, he, rfl⟩ := physSet_eq_ok.1 h
  refine ⟨by simpa using F.phys, fun e' he' => ?_, F.virt, F.vphys⟩
  rcases List.mem_or_eq_of_mem_set he' with h | rfl
  · exact F.next _ h
  · exact F.next e (List.mem_of_getElem? he)

theorem fits_physAssert {p : Nat} {d : Dev} (h : physAssert s.dev p = .ok d) : DevFits d := by
  simp only [physAssert, bind_eq_ok, rd_eq_ok] at h
  obtain ⟨e, he, h⟩ := h
  cases h
  exact ⟨F.phys, F.next, F.virt, F.vphys⟩

theorem fits_physToggle {p : Nat} {d : Dev} (h : physToggle s.dev p = .ok d) : DevFits d := by
  simp only [physToggle, bind_eq_ok, rd_eq_ok] at h
  obtain ⟨e, he, h⟩ := h
  exact fits_physSet F h

omit F in
theorem c_valid_physical_device {p : Nat} (hp : p < 256) (t : Ity) (env ps keys) (w n : Nat) :
    run prog w (n + 1) .valid_physical_device [.int t p] (K x s env ps keys) =
      .ok (.int .u8 (if validPhys p then 1 else 0)) (K x s env ps keys) := by
  have hv : validPhys p = true ↔ 0 < p ∧ p < 13 := by
    unfold validPhys; rw [Bool.and_eq_true, decide_eq_true_iff, decide_eq_true_iff]; rfl
  cfn fn_valid_physical_device
  by_cases h0 : (0 : Int) < p
  · by_cases h1 : (p : Int) < 13
    · have : validPhys p = true := hv.2 (by omega)
      cgo [h0, h1, this]
    · have : validPhys p = false := Bool.eq_false_iff.2 (mt hv.1 (by omega))
      cgo [h0, h1, this]
  · have : validPhys p = false := Bool.eq_false_iff.2 (mt hv.1 (by omega))
    cgo [h0, this]

theorem c_physical_next_device {p q : Nat} (h : physNext s.dev p = .ok q) (t : Ity) (env ps keys) (w n : Nat) :
    run prog w (n + 1) .asdf_physical_next_device [.int t p] (K x s env ps keys) =
      .ok (.int .u8 q) (K x s env ps keys) := by
  simp only [physNext, bind_eq_ok, rd_eq_ok] at h
  obtain ⟨e, he, h⟩ := h
  cases h
  have hp := phys_lt F he
  have hn := F.next _ (List.mem_of_getElem? he)
  cfn fn_asdf_physical_next_device
  cgo [Int.toNat_natCast, he]

/-- The search for a free device. -/
theorem loop_is_available {device : Nat} (hd : device < 256) (c st b)
    (hl : fn_physical_device_is_available.body.loops[0]? = some (c, st, b)) (call w ps keys) :
    ∀ (fuel cur m : Nat) (c0 : Int) (e : PhysEntry) (r : Nat),
      findFree s.dev.phys device fuel cur = .ok r → fuel ≤ m → c0 = cur → s.dev.phys[cur]? = some e → ∃ cur' nxt : Nat, cur' < 13 ∧ nxt < 256 ∧
        turns (evalE call c) (exec call w b) (evalE call st) m
          (K x s [(.next_out, .int .u8 e.next), (.current_out, .int .u8 c0), (.device, .int .u8 device)] ps keys) =
        .ok .next (K x s [(.next_out, .int .u8 nxt), (.current_out, .int .u8 cur'),
          (.device, .int .u8 device)] ps keys) ∧ (if nxt = 0 then 13 else cur') = r := by
  cases hl
  intro fuel
  induction fuel with
  | zero => intro cur m c0 e r h; cases h
  | succ fuel ih =>
    rintro cur m _ e r h hm rfl he
    obtain ⟨m, rfl⟩ : ∃ k, m = k + 1 := ⟨m - 1, by omega⟩
    have hc := phys_lt F he
    have hn := F.next _ (List.mem_of_getElem? he)
    simp only [findFree, rd_some he, ok_bind, PHYSICAL_NO_OUT, NUM_PHYS] at h
    by_cases h0 : e.next = 0
    · simp only [h0, ↓reduceIte] at h
      cases h
      refine ⟨cur, e.next, hc, hn, ?_, if_pos h0⟩
      rw [turns_succ]
      have h0' : (e.next : Int) = 0 := by omega
      cgo [h0']
    · by_cases h1 : e.next = device
      · simp only [h1, ↓reduceIte] at h
        rw [if_neg (by omega)] at h
        cases h
        refine ⟨cur, e.next, hc, hn, ?_, if_neg h0⟩
        have h0' : ¬ (e.next : Int) = 0 := by omega
        rw [turns_succ]
        subst h1
        cgo [h0']
      · simp only [h0, h1, ↓reduceIte] at h
        have h0' : ¬ (e.next : Int) = 0 := by omega
        have h1' : ¬ (e.next : Int) = device := by omega
        obtain ⟨e', he'⟩ : ∃ e', s.dev.phys[e.next]? = some e' := by
          cases fuel with
          | zero => cases h
          | succ k =>
            simp only [findFree, bind_eq_ok, rd_eq_ok] at h
            exact ⟨_, h.choose_spec.1⟩
        obtain ⟨cur', nxt, k1, k2, k3, k4⟩ := ih e.next m _ e' r h (by omega) rfl he'
        have hn' := F.next _ (List.mem_of_getElem? he')
        refine ⟨cur', nxt, k1, k2, ?_, k4⟩
        rw [turns_succ]
        cgo [h0', h1', he', k3, Int.toNat_natCast]

theorem c_physical_device_is_available {device r : Nat} (hd : device < 256)
    (h : physIsAvailable s.dev.phys device = .ok r) (t : Ity) (env ps keys) {w : Nat} (hw : 300 ≤ w)
    (n : Nat) :
    run prog w (n + 1) .physical_device_is_available [.int t device] (K x s env ps keys) =
      .ok (.int .u8 r) (K x s env ps keys) := by
  obtain ⟨e, he⟩ : ∃ e, s.dev.phys[0]? = some e :=
    ⟨_, List.getElem?_eq_getElem (by rw [F.phys]; omega)⟩
  obtain ⟨cur', nxt, k1, k2, k3, k4⟩ := loop_is_available F hd _ _ _ rfl (run prog w n) w ps keys
    14 0 w 0 e r h (by omega) rfl he
  have hn' := F.next _ (List.mem_of_getElem? he)
  cfn fn_physical_device_is_available
  by_cases h0 : nxt = 0
  · simp only [h0, ↓reduceIte] at k4
    subst k4
    have h0' : (nxt : Int) = 0 := by omega
    cgo [he, k3, h0']
  · simp only [h0, ↓reduceIte] at k4
    subst k4
    have h0' : ¬ (0 : Int) = nxt := by omega
    cgo [he, k3, h0']

theorem c_physical_allocate {p tail : Nat} {initial : UInt8} (hp : p < 256) (ht : tail < 256) {ok : Bool}
    {d : Dev} (h : physAllocate s.dev p tail initial = .ok (ok, d)) (t t' t'' : Ity) (env ps keys) {w : Nat}
    (hw : 300 ≤ w) (n : Nat) :
    run prog w (n + 2) .asdf_physical_allocate [.int t p, .int t' tail, .int t'' initial.toNat]
        (K x s env ps keys) =
      .ok (.int .u8 (if ok then 1 else 0)) (K x { s with dev := d } env ps keys) := by
  simp only [physAllocate, bind_eq_ok] at h
  obtain ⟨pred, hpred, h⟩ := h
  have c1 := c_physical_device_is_available F hp hpred
  have c2 := c_valid_physical_device (x := x) (s := s) hp
  cfn fn_asdf_physical_allocate
  cases hv : validPhys p
  · simp only [hv, Bool.false_and, Bool.false_eq_true, ↓reduceIte] at h
    cases h
    cgo [c1, c2, hv]
  · simp only [hv, Bool.true_and] at h
    by_cases hne : pred = 13
    · have hne' : (pred : Int) = 13 := by omega
      rw [if_neg (by rw [hne]; decide)] at h
      cases h
      cgo [c1, c2, hv, hne']
    · rw [if_pos (by rw [decide_eq_true_iff]; exact fun e => hne e.symm)] at h
      simp only [bind_eq_ok, rd_eq_ok, wr_eq_ok] at h
      obtain ⟨ep, hep, epred, hepred, _, ⟨-, rfl⟩, ep1, hep1, _, ⟨-, rfl⟩, ep2, hep2, _, ⟨-, rfl⟩, h⟩ := h
      cases h
      have k1 := phys_lt F hep
      have k2 := phys_lt F hepred
      have k3 := F.next _ (List.mem_of_getElem? hep)
      have hne' : ¬ (13 : Int) = pred := by omega
      have n1 : ((ep.next : Int) % 256).toNat = ep.next := by omega
      have n2 : ((tail : Int) % 256).toNat = tail := by omega
      cgo [c1, c2, hv, hne', Int.toNat_natCast, hep, hepred, hep1, n1, n2, hep2]

theorem fits_physAllocate {p tail : Nat} {initial : UInt8} (ht : tail < 256) {ok : Bool} {d : Dev}
    (h : physAllocate s.dev p tail initial = .ok (ok, d)) : DevFits d := by
  simp only [physAllocate, bind_eq_ok] at h
  obtain ⟨pred, hpred, h⟩ := h
  split at h
  · simp only [bind_eq_ok, rd_eq_ok, wr_eq_ok] at h
    obtain ⟨ep, hep, epred, hepred, _, ⟨-, rfl⟩, ep1, hep1, _, ⟨-, rfl⟩, ep2, hep2, _, ⟨-, rfl⟩, h⟩ := h
    cases h
    have n1 : ∀ e ∈ s.dev.phys.set pred { epred with next := ep.next }, e.next < 256 := by
      intro e he
      rcases List.mem_or_eq_of_mem_set he with he | rfl
      · exact F.next _ he
      · exact F.next ep (List.mem_of_getElem? hep)
    have n2 : ∀ e ∈ (s.dev.phys.set pred { epred with next := ep.next }).set p { ep1 with next := tail },
        e.next < 256 := by
      intro e he
      rcases List.mem_or_eq_of_mem_set he with he | rfl
      · exact n1 _ he
      · exact ht
    refine ⟨by simpa using F.phys, fun e he => ?_, F.virt, F.vphys⟩
    rcases List.mem_or_eq_of_mem_set he with he | rfl
    · exact n2 _ he
    · exact n2 ep2 (List.mem_of_getElem? hep2)
  · cases h
    exact F.dev

omit F in
/-- The loop of `asdf_physical_init`. -/
theorem loop_physical_init (c st b) (hl : fn_asdf_physical_init.body.loops[0]? = some (c, st, b)) (call w ps keys) :
    ∀ (k i m : Nat) (i0 : Int) (s : State), s.dev.phys.length = 13 → i + k = 13 → k < m → i0 = i →
      turns (evalE call c) (exec call w b) (evalE call st) m (K x s [(.i, .int .u8 i0)] ps keys) =
        .ok .next (K x { s with dev := { s.dev with phys := s.dev.phys.mapIdx fun j e =>
          if i ≤ j then ⟨1, j + 1⟩ else e } } [(.i, .int .u8 13)] ps keys) := by
  cases hl
  intro k
  induction k with
  | zero =>
    rintro i m _ s h1 h2 hm rfl
    obtain ⟨m, rfl⟩ : ∃ k, m = k + 1 := ⟨m - 1, by omega⟩
    have : (s.dev.phys.mapIdx fun j e => if i ≤ j then ⟨1, j + 1⟩ else e) = s.dev.phys := by
      apply List.ext_getElem (by simp)
      intro j h h'
      simp only [List.getElem_mapIdx]
      exact if_neg (by omega)
    rw [this, turns_succ]
    have hi : (i : Int) = 13 := by omega
    cgo [hi]
  | succ k ih =>
    rintro i m _ s h1 h2 hm rfl
    obtain ⟨m, rfl⟩ : ∃ k, m = k + 1 := ⟨m - 1, by omega⟩
    obtain ⟨e, he⟩ : ∃ e, s.dev.phys[i]? = some e := ⟨_, List.getElem?_eq_getElem (by omega)⟩
    have hi : (i : Int) < 13 := by omega
    have hi' : (((i : Int) + 1) % 256).toNat = i + 1 := by omega
    have hlen : i < s.dev.phys.length := by omega
    have e := ih (i + 1) m ((i : Int) + 1) { s with dev := { s.dev with phys := s.dev.phys.set i ⟨1, i + 1⟩ } }
      (by simpa using h1) (by omega) (by omega) (by omega)
    rw [turns_succ]
    cgo [Int.toNat_natCast, he, hi, hi', hlen]
    refine e.trans ?_
    congr 3
    refine congrArg (fun l => ({ s.dev with phys := l } : Dev)) (List.ext_getElem (by simp) fun j h h' => ?_)
    simp only [List.getElem_mapIdx, List.getElem_set]
    by_cases hij : i = j
    · subst hij
      simp
    · simp only [hij, ↓reduceIte]
      by_cases hle : i ≤ j
      · rw [if_pos (by omega), if_pos hle]
      · rw [if_neg (by omega), if_neg hle]

theorem c_physical_init (env ps keys) {w : Nat} (hw : 300 ≤ w) (n : Nat) :
    run prog w (n + 1) .asdf_physical_init [] (K x s env ps keys) =
      .ok .unit (K x { s with dev := physInit s.dev } env ps keys) := by
  have e := loop_physical_init (x := x) _ _ _ rfl (run prog w n) w ps keys 13 0 w 0 s F.phys rfl (by omega) rfl
  have hl := F.phys
  obtain ⟨e12, he⟩ : ∃ e, s.dev.phys[12]? = some e := ⟨_, List.getElem?_eq_getElem (by omega)⟩
  cfn fn_asdf_physical_init
  cgo [e, he, List.getElem?_mapIdx, Option.map_some, Nat.zero_le]
  congr 3
  refine congrArg (fun l => ({ s.dev with phys := l } : Dev)) (List.ext_getElem (by simp [hl, NUM_PHYS]) fun j h h' => ?_)
  have hj : j < 13 := by simpa [hl] using h
  simp only [List.getElem_set, List.getElem_mapIdx, List.getElem_map, List.getElem_range]
  by_cases h12 : j = 12
  · subst h12; rfl
  · rw [if_neg (by omega), if_neg]
    exact h12

omit F in
theorem fits_physInit (h : DevFits s.dev) : DevFits (physInit s.dev) := by
  refine ⟨by simp [physInit, NUM_PHYS], ?_, h.virt, h.vphys⟩
  simp only [physInit, List.mem_map, List.mem_range]
  rintro e ⟨i, hi, rfl⟩
  have hi : i < 13 := hi
  show (if i = 12 then 0 else i + 1) < 256
  split <;> omega

omit F in
/-- The loop of `asdf_virtual_map_function`. -/
theorem loop_map (f : C.F) (g : Dev → Nat → Res Dev) (c st b)
    (hl : fn_asdf_virtual_map_function.body.loops[0]? = some (c, st, b)) (w n ps keys)
    (hg : ∀ (s : State) p d, Fits x s → g s.dev p = .ok d → DevFits d)
    (hf : ∀ (s : State) p d env, Fits x s → g s.dev p = .ok d →
      run prog w (n + 1) f [.int .u8 p] (K x s env ps keys) = .ok .unit (K x { s with dev := d } env ps keys)) :
    ∀ (fuel p m : Nat) (s : State) (d : Dev), Fits x s → p < 256 → mapDevices g fuel s.dev p = .ok d → fuel ≤ m →
      DevFits d ∧ turns (evalE (run prog w (n + 1)) c) (exec (run prog w (n + 1)) w b)
          (evalE (run prog w (n + 1)) st) m
          (K x s [(.function, .fn f), (.device, .int .u8 p)] ps keys) =
        .ok .next (K x { s with dev := d } [(.function, .fn f), (.device, .int .u8 0)] ps keys) := by
  cases hl
  intro fuel
  induction fuel with
  | zero => intro p m s d _ _ h; cases h
  | succ fuel ih =>
    intro p m s d F hp h hm
    obtain ⟨m, rfl⟩ : ∃ k, m = k + 1 := ⟨m - 1, by omega⟩
    simp only [mapDevices] at h
    rw [turns_succ]
    by_cases h0 : p = 0
    · rw [if_pos (show p = PHYSICAL_NO_OUT from h0)] at h
      cases h
      have h0' : (p : Int) = 0 := by omega
      refine ⟨F.dev, ?_⟩
      cgo [h0']
    · rw [if_neg (show ¬ p = PHYSICAL_NO_OUT from h0)] at h
      simp only [bind_eq_ok] at h
      obtain ⟨d1, hd1, nxt, hnx, h⟩ := h
      have h0' : ¬ (0 : Int) = p := by omega
      have F1 : Fits x { s with dev := d1 } := F.setDev (hg _ _ _ F hd1)
      have c1 := hf s p d1 [(.function, .fn f), (.device, .int .u8 p)] F hd1
      have c2 := c_physical_next_device F1 hnx
      have hnx' : nxt < 256 := by
        simp only [physNext, bind_eq_ok, rd_eq_ok] at hnx
        obtain ⟨e, he, hnx⟩ := hnx
        cases hnx
        exact F1.next _ (List.mem_of_getElem? he)
      obtain ⟨k1, k2⟩ := ih nxt m _ d F1 hnx' h (by omega)
      refine ⟨k1, ?_⟩
      cgo [h0', c1, c2, k2]

omit F in
theorem c_virtual_map_function (f : C.F) (g : Dev → Nat → Res Dev) {w : Nat} (hw : 300 ≤ w) (n ps keys)
    (hg : ∀ (s : State) p d, Fits x s → g s.dev p = .ok d → DevFits d)
    (hf : ∀ (s : State) p d env, Fits x s → g s.dev p = .ok d →
      run prog w (n + 1) f [.int .u8 p] (K x s env ps keys) = .ok .unit (K x { s with dev := d } env ps keys))
    {p : Nat} {d : Dev} (F : Fits x s) (hp : p < 256) (h : mapDevices g LIST_FUEL s.dev p = .ok d) (t env) :
    DevFits d ∧ run prog w (n + 2) .asdf_virtual_map_function [.fn f, .int t p] (K x s env ps keys) =
      .ok .unit (K x { s with dev := d } env ps keys) := by
  obtain ⟨k1, k2⟩ := loop_map f g _ _ _ rfl w n ps keys hg hf LIST_FUEL p w s d F hp h
    (Nat.le_trans (by decide) hw)
  refine ⟨k1, ?_⟩
  cfn fn_asdf_virtual_map_function
  cgo [k2]

theorem c_map_toggle {w : Nat} (hw : 300 ≤ w) (n ps keys) {p : Nat} {d : Dev} (hp : p < 256)
    (h : mapDevices physToggle LIST_FUEL s.dev p = .ok d) (t env) :
    DevFits d ∧ run prog w (n + 4) .asdf_virtual_map_function [.fn .asdf_physical_toggle, .int t p]
        (K x s env ps keys) =
      .ok .unit (K x { s with dev := d } env ps keys) :=
  c_virtual_map_function _ _ hw _ _ _ (fun _ _ _ F h => fits_physToggle F h)
    (fun _ _ _ env F h => c_physical_toggle F _ h env _ _ _ _) F hp h t env

theorem c_map_on {w : Nat} (hw : 300 ≤ w) (n ps keys) {p : Nat} {d : Dev} (hp : p < 256)
    (h : mapDevices physOn LIST_FUEL s.dev p = .ok d) (t env) :
    DevFits d ∧ run prog w (n + 3) .asdf_virtual_map_function [.fn .asdf_physical_on, .int t p]
        (K x s env ps keys) =
      .ok .unit (K x { s with dev := d } env ps keys) :=
  c_virtual_map_function _ _ hw _ _ _ (fun _ _ _ F h => fits_physSet F h)
    (fun _ _ _ env F h => c_physical_on F _ h env _ _ _ _) F hp h t env

theorem c_map_off {w : Nat} (hw : 300 ≤ w) (n ps keys) {p : Nat} {d : Dev} (hp : p < 256)
    (h : mapDevices physOff LIST_FUEL s.dev p = .ok d) (t env) :
    DevFits d ∧ run prog w (n + 3) .asdf_virtual_map_function [.fn .asdf_physical_off, .int t p]
        (K x s env ps keys) =
      .ok .unit (K x { s with dev := d } env ps keys) :=
  c_virtual_map_function _ _ hw _ _ _ (fun _ _ _ F h => fits_physSet F h)
    (fun _ _ _ env F h => c_physical_off F _ h env _ _ _ _) F hp h t env

omit F in
theorem run_delay (S : St Io) (w n : Nat) :
    run prog w (n + 1) .asdf_arch_pulse_delay_long [] S = .ok .unit (S.emit .delayLong) ∧
    run prog w (n + 1) .asdf_arch_pulse_delay_short [] S = .ok .unit (S.emit .delayShort) := by
  constructor <;> (rw [run_ext rfl]; rfl)

theorem c_virtual_action {v : Nat} {fn : VFun} {d : Dev} (h : virtAction s.dev v fn = .ok d) (t t' : Ity)
    (env ps keys) {w : Nat} (hw : 300 ≤ w) (n : Nat) :
    DevFits d ∧ run prog w (n + 5) .asdf_virtual_action [.int t v, .int t' (funNo fn)] (K x s env ps keys) =
      .ok .unit (K x { s with dev := d } env ps keys) := by
  simp only [virtAction, bind_eq_ok, rd_eq_ok] at h
  obtain ⟨e, he, h⟩ := h
  have hv : v < 12 := F.virt ▸ (List.getElem?_eq_some_iff.1 he).1
  have hp := F.vphys _ (List.mem_of_getElem? he)
  have hd := fun (S : St Io) (n : Nat) => run_delay S w n
  cfn fn_asdf_virtual_action
  cases fn with
  | nofunc =>
    cases h
    refine ⟨F.dev, ?_⟩
    cgo [Int.toNat_natCast, he, funNo]
  | setHi =>
    have c := fun env => (c_map_on F hw (n + 1) ps keys hp h .u8 env).2
    refine ⟨(c_map_on F hw n ps keys hp h .u8 env).1, ?_⟩
    cgo [Int.toNat_natCast, he, funNo, c]
  | setLo =>
    have c := fun env => (c_map_off F hw (n + 1) ps keys hp h .u8 env).2
    refine ⟨(c_map_off F hw n ps keys hp h .u8 env).1, ?_⟩
    cgo [Int.toNat_natCast, he, funNo, c]
  | toggle =>
    have c := fun env => (c_map_toggle F hw n ps keys hp h .u8 env).2
    refine ⟨(c_map_toggle F hw n ps keys hp h .u8 env).1, ?_⟩
    cgo [Int.toNat_natCast, he, funNo, c]
  | pulseShort =>
    simp only [bind_eq_ok] at h
    obtain ⟨d1, h1, h2⟩ := h
    have c := fun env => (c_map_toggle F hw n ps keys hp h1 .u8 env).2
    have D := (c_map_toggle F hw n ps keys hp h1 .u8 env).1
    have F1 : Fits x { s with dev := d1.emit .delayShort } :=
      F.setDev ⟨D.phys, D.next, D.virt, D.vphys⟩
    have c' := fun env => (c_map_toggle F1 hw n ps keys hp h2 .u8 env).2
    refine ⟨(c_map_toggle F1 hw n ps keys hp h2 .u8 env).1, ?_⟩
    cgo [Int.toNat_natCast, he, funNo, c, hd, State.emit, c']
  | pulseLong =>
    simp only [bind_eq_ok] at h
    obtain ⟨d1, h1, h2⟩ := h
    have c := fun env => (c_map_toggle F hw n ps keys hp h1 .u8 env).2
    have D := (c_map_toggle F hw n ps keys hp h1 .u8 env).1
    have F1 : Fits x { s with dev := d1.emit .delayLong } :=
      F.setDev ⟨D.phys, D.next, D.virt, D.vphys⟩
    have c' := fun env => (c_map_toggle F1 hw n ps keys hp h2 .u8 env).2
    refine ⟨(c_map_toggle F1 hw n ps keys hp h2 .u8 env).1, ?_⟩
    cgo [Int.toNat_natCast, he, funNo, c, hd, State.emit, c']

theorem c_virtual_activate {v : Nat} {d : Dev} (h : virtActivate s.dev v = .ok d) (t : Ity)
    (env ps keys) {w : Nat} (hw : 300 ≤ w) (n : Nat) :
    DevFits d ∧ run prog w (n + 6) .asdf_virtual_activate [.int t v] (K x s env ps keys) =
      .ok .unit (K x { s with dev := d } env ps keys) := by
  simp only [virtActivate, bind_eq_ok, rd_eq_ok] at h
  obtain ⟨e, he, h⟩ := h
  have hv : v < 12 := F.virt ▸ (List.getElem?_eq_some_iff.1 he).1
  have c := fun env => (c_virtual_action F h .u8 .u8 env ps keys hw n).2
  refine ⟨(c_virtual_action F h .u8 .u8 env ps keys hw n).1, ?_⟩
  cfn fn_asdf_virtual_activate
  cgo [Int.toNat_natCast, he, c]

omit F in
theorem validVirt_iff {v : Nat} : validVirt v = true ↔ 0 < v ∧ v < 12 := by
  unfold validVirt; rw [Bool.and_eq_true, decide_eq_true_iff, decide_eq_true_iff]; rfl

omit F in
theorem c_valid_virtual_device {p : Nat} (hp : p < 256) (t : Ity) (env ps keys) (w n : Nat) :
    run prog w (n + 1) .valid_virtual_device [.int t p] (K x s env ps keys) =
      .ok (.int .u8 (if validVirt p then 1 else 0)) (K x s env ps keys) := by
  have hv := validVirt_iff (v := p)
  cfn fn_valid_virtual_device
  by_cases h0 : (0 : Int) < p
  · by_cases h1 : (p : Int) < 12
    · have : validVirt p = true := hv.2 (by omega)
      cgo [h0, h1, this]
    · have : validVirt p = false := Bool.eq_false_iff.2 (mt hv.1 (by omega))
      cgo [h0, h1, this]
  · have : validVirt p = false := Bool.eq_false_iff.2 (mt hv.1 (by omega))
    cgo [h0, this]

theorem c_virtual_assign {v p : Nat} {fn : VFun} {initial : UInt8} (hv : v < 256) (hp : p < 256) {d : Dev}
    (h : virtAssign s.dev v p fn initial = .ok d) (t t' t'' t3 : Ity) (env ps keys) {w : Nat}
    (hw : 300 ≤ w) (n : Nat) :
    DevFits d ∧ run prog w (n + 3) .asdf_virtual_assign
        [.int t v, .int t' p, .int t'' (funNo fn), .int t3 initial.toNat] (K x s env ps keys) =
      .ok .unit (K x { s with dev := d } env ps keys) := by
  have c1 := c_valid_virtual_device (x := x) (s := s) hv
  have hfn : (0 : Int) ≤ funNo fn ∧ (funNo fn : Int) ≤ 5 := by cases fn <;> decide
  cfn fn_asdf_virtual_assign
  cases hvv : validVirt v
  · simp only [virtAssign, hvv, Bool.false_eq_true, ↓reduceIte] at h
    cases h
    refine ⟨F.dev, ?_⟩
    cgo [c1, hvv]
  · simp only [virtAssign, hvv, ↓reduceIte, bind_eq_ok, rd_eq_ok] at h
    obtain ⟨e, he, ⟨ok, d1⟩, h1, h⟩ := h
    have ht := F.vphys _ (List.mem_of_getElem? he)
    have F1 := fits_physAllocate F ht h1
    have hv' : v < 12 := (validVirt_iff.1 hvv).2
    have c2 := c_physical_allocate F hp ht h1
    cases ok
    · cases h
      refine ⟨F1, ?_⟩
      cgo [c1, hvv, Int.toNat_natCast, he, c2]
    · simp only [↓reduceIte, bind_eq_ok, wr_eq_ok] at h
      obtain ⟨_, ⟨-, rfl⟩, h⟩ := h
      cases h
      obtain ⟨e1, he1⟩ : ∃ e, d1.virt[v]? = some e := ⟨_, List.getElem?_eq_getElem (by rw [F1.virt]; omega)⟩
      have hl : v < d1.virt.length := by rw [F1.virt]; omega
      have hm : ((p : Int) % 256).toNat = p := by omega
      refine ⟨⟨F1.phys, F1.next, by simpa using F1.virt, ?_⟩, ?_⟩
      · intro e' he'
        rcases List.mem_or_eq_of_mem_set he' with he' | rfl
        · exact F1.vphys _ he'
        · exact hp
      · cgo [c1, hvv, Int.toNat_natCast, he, c2, he1, hl, hm]

omit F in
/-- The loop of `asdf_virtual_init`. -/
theorem loop_virtual_init (c st b) (hl : fn_asdf_virtual_init.body.loops[0]? = some (c, st, b)) (call w ps keys) :
    ∀ (k i m : Nat) (i0 : Int) (s : State), s.dev.virt.length = 12 → i + k = 12 → k < m → i0 = i →
      turns (evalE call c) (exec call w b) (evalE call st) m (K x s [(.i, .int .u8 i0)] ps keys) =
        .ok .next (K x { s with dev := { s.dev with virt := s.dev.virt.mapIdx fun j e =>
          if i ≤ j then ⟨0, .nofunc⟩ else e } } [(.i, .int .u8 12)] ps keys) := by
  cases hl
  intro k
  induction k with
  | zero =>
    rintro i m _ s h1 h2 hm rfl
    obtain ⟨m, rfl⟩ : ∃ k, m = k + 1 := ⟨m - 1, by omega⟩
    have : (s.dev.virt.mapIdx fun j e => if i ≤ j then ⟨0, .nofunc⟩ else e) = s.dev.virt := by
      apply List.ext_getElem (by simp)
      intro j h h'
      simp only [List.getElem_mapIdx]
      exact if_neg (by omega)
    rw [this, turns_succ]
    have hi : (i : Int) = 12 := by omega
    cgo [hi]
  | succ k ih =>
    rintro i m _ s h1 h2 hm rfl
    obtain ⟨m, rfl⟩ : ∃ k, m = k + 1 := ⟨m - 1, by omega⟩
    obtain ⟨e, he⟩ : ∃ e, s.dev.virt[i]? = some e := ⟨_, List.getElem?_eq_getElem (by omega)⟩
    have hi : (i : Int) < 12 := by omega
    have hlen : i < s.dev.virt.length := by omega
    have e := ih (i + 1) m ((i : Int) + 1) { s with dev := { s.dev with virt := s.dev.virt.set i ⟨0, .nofunc⟩ } }
      (by simpa using h1) (by omega) (by omega) (by omega)
    rw [turns_succ]
    cgo [Int.toNat_natCast, he, hi, hlen]
    refine e.trans ?_
    congr 3
    refine congrArg (fun l => ({ s.dev with virt := l } : Dev)) (List.ext_getElem (by simp) fun j h h' => ?_)
    simp only [List.getElem_mapIdx, List.getElem_set]
    by_cases hij : i = j
    · subst hij
      simp
    · simp only [hij, ↓reduceIte]
      by_cases hle : i ≤ j
      · rw [if_pos (by omega), if_pos hle]
      · rw [if_neg (by omega), if_neg hle]

theorem c_virtual_init (env ps keys) {w : Nat} (hw : 300 ≤ w) (n : Nat) :
    run prog w (n + 2) .asdf_virtual_init [] (K x s env ps keys) =
      .ok .unit (K x { s with dev := virtInit s.dev } env ps keys) := by
  have e := loop_virtual_init (x := x) _ _ _ rfl (run prog w (n + 1)) w ps keys 12 0 w 0
    { s with dev := physInit s.dev } F.virt rfl (by omega) rfl
  have c := c_physical_init F
  have hl := F.virt
  cfn fn_asdf_virtual_init
  cgo [e, c]
  congr 3
  refine congrArg (fun l => ({ physInit s.dev with virt := l } : Dev))
    (List.ext_getElem (by simp [physInit, hl, NUM_VIRT]) fun j h h' => ?_)
  simp [PHYSICAL_NO_OUT]

theorem fits_virtInit : DevFits (virtInit s.dev) := by
  have h := fits_physInit F.dev
  refine ⟨h.phys, h.next, by simp [virtInit, NUM_VIRT], ?_⟩
  intro e he
  rw [List.eq_of_mem_replicate he]
  decide

omit F in
/-- The loop of `asdf_virtual_sync`. -/
theorem loop_virtual_sync (c st b) (hl : fn_asdf_virtual_sync.body.loops[0]? = some (c, st, b)) (w n ps keys) :
    ∀ (k i m : Nat) (i0 : Int) (s : State) (d : Dev), Fits x s → i + k = 13 → k < m → i0 = i →
      (List.range' i k).foldlM physAssert s.dev = .ok d →
      DevFits d ∧ turns (evalE (run prog w (n + 2)) c) (exec (run prog w (n + 2)) w b)
          (evalE (run prog w (n + 2)) st) m (K x s [(.i, .int .u8 i0)] ps keys) =
        .ok .next (K x { s with dev := d } [(.i, .int .u8 13)] ps keys) := by
  cases hl
  intro k
  induction k with
  | zero =>
    rintro i m _ s d F h2 hm rfl h
    obtain ⟨m, rfl⟩ : ∃ k, m = k + 1 := ⟨m - 1, by omega⟩
    cases h
    refine ⟨F.dev, ?_⟩
    rw [turns_succ]
    have hi : (i : Int) = 13 := by omega
    cgo [hi]
  | succ k ih =>
    rintro i m _ s d F h2 hm rfl h
    obtain ⟨m, rfl⟩ : ∃ k, m = k + 1 := ⟨m - 1, by omega⟩
    rw [List.range'_succ, List.foldlM_cons, bind_eq_ok] at h
    obtain ⟨d1, h1, h⟩ := h
    have hi : (i : Int) < 13 := by omega
    obtain ⟨k1, k2⟩ := ih (i + 1) m ((i : Int) + 1) { s with dev := d1 } d (F.setDev (fits_physAssert F h1))
      (by omega) (by omega) (by omega) h
    have c := c_physical_assert F .u8 h1
    refine ⟨k1, ?_⟩
    rw [turns_succ]
    cgo [hi, c, k2]

theorem c_virtual_sync {d : Dev} (h : virtSync s.dev = .ok d) (env ps keys) {w : Nat} (hw : 300 ≤ w)
    (n : Nat) :
    DevFits d ∧ run prog w (n + 3) .asdf_virtual_sync [] (K x s env ps keys) =
      .ok .unit (K x { s with dev := d } env ps keys) := by
  rw [virtSync, List.range_eq_range'] at h
  obtain ⟨k1, k2⟩ := loop_virtual_sync _ _ _ rfl w n ps keys 13 0 w 0 s d F rfl (by omega) rfl h
  refine ⟨k1, ?_⟩
  cfn fn_asdf_virtual_sync
  cgo [k2]

end
end Asdf.C
