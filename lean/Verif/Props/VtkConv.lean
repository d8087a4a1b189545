import Verif.Lemmas.VtkConv
import Verif.Props.Vtk
import Verif.Props.VtkList
import Verif.Props.VtkPlanes
import Mathlib.Data.List.Sort

/-!
# Arrays computed by `vtk_zconvolution` (C47)
-/

namespace Cfd.Vtk
open Cfd.Spec Cfd.Spec.Vtk

variable {P K V Q : Type}

/-- A selection: known variables, each once. -/
def SelectionWF (names : List String) : Option (Dict String (List SelItem)) → Prop
  | none => True
  | some sel => sel.keys.Nodup ∧ (∀ k ∈ sel.keys, k ∈ names) ∧ ∀ p ∈ sel, ∀ i ∈ p.2, ItemWF i

/-- **C47, options.** The options of the selected variables are the general ones, changed by their own items in order;
other variables have none. -/
theorem C47_options (names : List String) (glob : Dict String OptVal) (select : Option (Dict String (List SelItem)))
    (hn : names.Nodup) (hs : SelectionWF names select) :
    ∃ dirs, directives names glob select = .ok dirs ∧ dirs.keys.Nodup ∧ (∀ k ∈ dirs.keys, k ∈ names) ∧
      ∀ var, match dirs.get? var, requested names glob select var with
        | none, none => True
        | some o, some req => ∀ key, o.get? key = req key
        | _, _ => False := by
  cases select with
  | none =>
    refine ⟨_, directives_none names glob hn, ?_, ?_, ?_⟩
    · simpa [Dict.keys, Function.comp_def] using hn
    · intro k hk
      simpa [Dict.keys, Function.comp_def] using hk
    · intro var
      have hnd : (Dict.keys (names.map fun n => (n, glob))).Nodup := by simpa [Dict.keys, Function.comp_def] using hn
      by_cases h : var ∈ names
      · rw [Dict.get?_of_mem hnd (List.mem_map.2 ⟨var, h, rfl⟩)]
        simp [requested, h]
      · rw [Dict.get?_eq_none_iff.2 (by simpa [Dict.keys, Function.comp_def] using h)]
        simp [requested, h]
  | some sel =>
    obtain ⟨h1, h2, h3⟩ := hs
    have hk : Dict.keys (sel.map fun p => (p.1, p.2.foldl applyItem glob)) = sel.keys := by
      simp [Dict.keys, Function.comp_def]
    refine ⟨_, directives_some names glob sel h1 h2, by rw [hk]; exact h1, by rw [hk]; exact h2, ?_⟩
    intro var
    simp only [requested]
    cases hg : sel.get? var with
    | none =>
      rw [Dict.get?_eq_none_iff.2 (by rw [hk]; exact Dict.get?_eq_none_iff.1 hg)]
      trivial
    | some items =>
      have hm := Dict.mem_of_get? hg
      have hm' : (var, items.foldl applyItem glob) ∈ sel.map fun p => (p.1, p.2.foldl applyItem glob) :=
        List.mem_map.2 ⟨_, hm, rfl⟩
      rw [Dict.get?_of_mem (by rw [hk]; exact h1) hm']
      exact fun key => items_get? items (h3 _ hm) glob key

/-- An unknown variable is refused. -/
theorem C47_unknown (names : List String) (glob : Dict String OptVal) (sel : Dict String (List SelItem))
    (h : ∃ k ∈ sel.keys, k ∉ names) : directives names glob (some sel) = .error .value := by
  have key : ∀ (l : Dict String (List SelItem)) (d : Dict String (Dict String OptVal)), (∃ k ∈ l.keys, k ∉ names) →
      l.foldlM (fun (d : Dict String (Dict String OptVal)) p =>
        if p.1 ∈ names then (.ok (d.set p.1 (p.2.foldl applyItem glob)) : Py _) else .error .value) d =
        .error .value := by
    intro l
    induction l with
    | nil => rintro d ⟨k, hk, _⟩; cases hk
    | cons p t ih =>
      rintro d ⟨k, hk, hn⟩
      rw [List.foldlM_cons]
      by_cases hp : p.1 ∈ names
      · rw [if_pos hp]
        simp only [Except_bind_ok]
        apply ih
        simp only [Dict.keys, List.map_cons, List.mem_cons] at hk
        rcases hk with rfl | hk
        · exact absurd hp hn
        · exact ⟨k, hk, hn⟩
      · rw [if_neg hp]; rfl
  exact key sel [] h

/-- Distinct arrays have distinct names. -/
def NoCollision (names : List String) (glob : Dict String OptVal) (select : Option (Dict String (List SelItem))) : Prop :=
  ∀ var var' req req', requested names glob select var = some req → requested names glob select var' = some req' →
    ∀ a b : Product, Asked req a → Asked req' b → a.label var = b.label var' → var = var' ∧ a = b

theorem asked_congr {o o' : String → Option OptVal} (h : ∀ k, o k = o' k) (a : Product) : Asked o a ↔ Asked o' a := by
  rw [show o = o' from funext h]

/-- **C47.** When the cells are in regular planes and columns (C46), the slice shows the cells of the first plane in
order, and its arrays are exactly the requested ones, computed over the columns. -/
theorem C47_zconvolution [LinearOrder K] [Sub K] (N : ZNum P K V) (absK : K → K) (dist : P → P → K)
    (nn : List P → P → Nat) (tol : K) (so : List Int → List Int) (junk : Nat → Int) (g : Grid Q)
    (data : Dict String (List V)) (rms phase snapshot : Bool) (nmode : Int)
    (select : Option (Dict String (List SelItem))) (xy : List P) (z : List K) (first : List Nat)
    (rest ik : List (List Nat)) (glob : Dict String OptVal) (hglob : glob = defaultOptions rms phase snapshot nmode)
    (hso : ∀ l, (so l).Perm l) (hg : GridWF g) (hsz : ∀ c ∈ g.items, c.2.length < 255)
    (hz : z.length = g.items.length) (hdk : data.keys.Nodup) (hlen : ∀ p ∈ data, p.2.length = g.items.length)
    (hsel : SelectionWF data.keys select) (hnc : NoCollision data.keys glob select)
    (hpl : planes N absK tol z = .ok (first :: rest)) (hip : IsPlanes z tol (first :: rest))
    (hsame : ∀ c ∈ rest, c.length = first.length)
    (hloc : locate N dist nn tol xy (first :: rest) = .ok ik) (hil : Located dist tol xy (first :: rest) ik)
    (hmode : ∀ var req v, requested data.keys glob select var = some req → req "nmode" = some v →
      numberOf v < (rest.length + 1 : Nat)) :
    ∃ grid out, zconvolution N absK dist nn tol so junk g data glob select xy z = .ok (grid, out) ∧
      grid.items.length = first.length ∧
      (∀ (j i : Nat), first[j]? = some i → shownCell grid j = shownCell g i) ∧
      ∀ n w, out.get? n = some w ↔ ∃ var req a v, requested data.keys glob select var = some req ∧ Asked req a ∧
        n = a.label var ∧ data.get? var = some v ∧
        w.map some = (List.range first.length).map fun j => a.value N (column v ik j) := by
  have hrange : ∀ c ∈ first :: rest, ∀ i ∈ c, i < g.items.length := by
    intro c hc i hi
    rw [← hz]
    exact List.mem_range.1 (hip.once.mem_iff.1 (List.mem_flatten.2 ⟨c, hc, hi⟩))
  obtain ⟨dirs, hd, hdn, hdk', hreq⟩ := C47_options data.keys glob select hdk hsel
  have hfg : FullOptions glob := by
    rw [hglob]
    intro k hk
    simp only [List.mem_cons, List.not_mem_nil, or_false] at hk
    rcases hk with rfl | rfl | rfl | rfl | rfl
    · exact ⟨.bool true, rfl⟩
    · exact ⟨.bool rms, rfl⟩
    · exact ⟨.bool phase, rfl⟩
    · exact ⟨.int nmode, rfl⟩
    · exact ⟨.bool snapshot, rfl⟩
  have hof : ∀ p ∈ dirs, ∃ req, requested data.keys glob select p.1 = some req ∧ ∀ key, p.2.get? key = req key := by
    intro p hp
    have h := hreq p.1
    rw [Dict.get?_of_mem hdn hp] at h
    cases hr : requested data.keys glob select p.1 with
    | none => rw [hr] at h; exact absurd h id
    | some req => rw [hr] at h; exact ⟨req, rfl, h⟩
  have hfull : ∀ p ∈ dirs, FullOptions p.2 := by
    intro p hp
    obtain ⟨req, h1, h2⟩ := hof p hp
    cases select with
    | none =>
      simp only [requested] at h1
      split at h1
      · obtain rfl := Option.some.inj h1
        intro k hk
        rw [h2]
        exact hfg k hk
      · cases h1
    | some sel =>
      simp only [requested, Option.map_eq_some_iff] at h1
      obtain ⟨items, h3, rfl⟩ := h1
      exact resolved_full glob items hfg p.2 h2
  obtain ⟨grid, hx1, hx2, hx3, hx4, -⟩ := C44_extract so junk g (first.map fun (i : Nat) => (i : Int)) hso hg
    (by simpa using hip.nonempty first (by simp))
    (by
      intro id hid
      obtain ⟨i, hi, rfl⟩ := List.mem_map.1 hid
      have := hrange first (by simp) i hi
      omega) hsz
  have hrows := hil.rows
  have hikr : ∀ r ∈ ik, r.length = first.length ∧ ∀ i ∈ r, i < g.items.length := by
    intro r hr
    obtain ⟨c, hc, hp⟩ : ∃ c ∈ first :: rest, r.Perm c := by
      obtain ⟨k, hk, rfl⟩ := List.getElem_of_mem hr
      exact ⟨(first :: rest)[k]'(by rw [hrows.length_eq]; exact hk), List.getElem_mem _,
        (List.forall₂_iff_get.1 hrows).2 k (by rw [hrows.length_eq]; exact hk) hk⟩
    refine ⟨?_, fun i hi => hrange c hc i (hp.mem_iff.1 hi)⟩
    rw [hp.length_eq]
    rcases List.mem_cons.1 hc with rfl | hc
    · rfl
    · exact hsame c hc
  obtain ⟨out, ho1, ho2⟩ := zoutputs_ok N data (first :: rest).length first.length g.items.length ik dirs hlen
    (fun r hr => (hikr r hr).1) (fun r hr => (hikr r hr).2)
    (by intro e; rw [e] at hrows; cases hrows)
    (fun p hp => hdk' p.1 (List.mem_map.2 ⟨p, hp, rfl⟩)) hfull
    (by
      intro p hp v hv
      obtain ⟨req, h1, h2⟩ := hof p hp
      exact hmode p.1 req v h1 (by rw [← h2]; exact hv))
    (by
      intro p hp q hq a b ha hb hab
      obtain ⟨req, h1, h2⟩ := hof p hp
      obtain ⟨req', h1', h2'⟩ := hof q hq
      obtain ⟨e1, e2⟩ := hnc p.1 q.1 req req' h1 h1' a b ((asked_congr h2 a).1 ha) ((asked_congr h2' b).1 hb) hab
      refine ⟨?_, e2⟩
      have hp' := Dict.get?_of_mem hdn hp
      have hq' := Dict.get?_of_mem hdn hq
      rw [← e1, hp'] at hq'
      exact Prod.ext e1 (Option.some.inj hq'))
  refine ⟨grid, out, ?_, by rw [hx3]; simp, ?_, ?_⟩
  · unfold zconvolution
    rw [hd]
    simp only [Except_bind_ok]
    rw [hpl]
    simp only [Except_bind_ok]
    rw [hloc]
    simp only [Except_bind_ok, List.headD_cons]
    rw [hx1]
    simp only [Except_bind_ok]
    rw [ho1]
    rfl
  · intro j i hj
    have := hx4 j (i : Int) (by rw [List.getElem?_map, hj]; rfl)
    rw [this, Int.toNat_natCast]
  · intro n w
    rw [ho2]
    constructor
    · rintro ⟨p, hp, a, v, h1, h2, h3, h4⟩
      obtain ⟨req, h5, h6⟩ := hof p hp
      exact ⟨p.1, req, a, v, h5, (asked_congr h6 a).1 h1, h2, h3, h4⟩
    · rintro ⟨var, req, a, v, h1, h2, h3, h4, h5⟩
      have h := hreq var
      rw [h1] at h
      cases ho : dirs.get? var with
      | none => rw [ho] at h; exact absurd h id
      | some o =>
        rw [ho] at h
        exact ⟨(var, o), Dict.mem_of_get? ho, a, v, (asked_congr h a).2 h2, h3, h4, h5⟩

/-- Asking for as many modes as planes is refused. -/
theorem C47_too_many_modes (N : ZNum P K V) (nplane : Nat) (name : String) (o : Dict String OptVal)
    (cols : List (List V)) (v : OptVal) (hfull : FullOptions o) (hv : o.get? "nmode" = some v)
    (h : (nplane : Int) ≤ numberOf v) (hp : 0 < nplane) : reduceVar N nplane name o cols = .error .index := by
  obtain ⟨va, ha⟩ := hfull "avg" (by simp)
  obtain ⟨vr, hr⟩ := hfull "rms" (by simp)
  obtain ⟨vp, hp⟩ := hfull "phase" (by simp)
  obtain ⟨vs, hs⟩ := hfull "snapshot" (by simp)
  unfold reduceVar
  simp only [Dict.getE_eq_ok.2 ha, Dict.getE_eq_ok.2 hr, Dict.getE_eq_ok.2 hp, Dict.getE_eq_ok.2 hv,
    Dict.getE_eq_ok.2 hs, Except_bind_ok, toInt_eq]
  rw [if_pos (by omega)]

/-- **C47, refusal.** When a selected variable asks for as many modes as there are planes, or more, `vtk_zconvolution`
raises: nothing is returned. -/
theorem C47_refused [LinearOrder K] [Sub K] (N : ZNum P K V) (absK : K → K) (dist : P → P → K)
    (nn : List P → P → Nat) (tol : K) (so : List Int → List Int) (junk : Nat → Int) (g : Grid Q)
    (data : Dict String (List V)) (glob : Dict String OptVal)
    (select : Option (Dict String (List SelItem))) (xy : List P) (z : List K) (hdk : data.keys.Nodup)
    (hsel : SelectionWF data.keys select) (chunks : List (List Nat)) (hne : chunks ≠ [])
    (hpl : planes N absK tol z = .ok chunks)
    (h : ∃ var req v, requested data.keys glob select var = some req ∧ req "nmode" = some v ∧
      (chunks.length : Int) ≤ numberOf v) :
    ∃ e, zconvolution N absK dist nn tol so junk g data glob select xy z = .error e := by
  obtain ⟨var, req, v, h1, h2, h3⟩ := h
  obtain ⟨dirs, hd, hdn, hdk', hreq⟩ := C47_options data.keys glob select hdk hsel
  obtain ⟨o, ho, hov⟩ : ∃ o, (var, o) ∈ dirs ∧ o.get? "nmode" = some v := by
    have h := hreq var
    rw [h1] at h
    cases ho : dirs.get? var with
    | none => rw [ho] at h; exact absurd h id
    | some o =>
      rw [ho] at h
      exact ⟨o, Dict.mem_of_get? ho, by rw [h]; exact h2⟩
  have hred : ∀ cols, ∃ e, reduceVar N chunks.length var o cols = .error e := by
    intro cols
    cases hr : reduceVar N chunks.length var o cols with
    | error e => exact ⟨e, rfl⟩
    | ok x =>
      exfalso
      unfold reduceVar at hr
      rw [Dict.getE_eq_ok.2 hov] at hr
      simp only [Except_bind_ok, toInt_eq] at hr
      obtain ⟨_, _, hr⟩ := bind_eq_ok.1 hr
      obtain ⟨_, _, hr⟩ := bind_eq_ok.1 hr
      obtain ⟨_, _, hr⟩ := bind_eq_ok.1 hr
      have : 0 < chunks.length := List.length_pos_of_ne_nil hne
      rw [if_pos (by omega)] at hr
      cases hr
  have hout : ∀ (size : Nat) (ik : List (List Nat)), ∃ e, zoutputs N data chunks.length size ik dirs = .error e := by
    intro size ik
    have key : ∀ (l : Dict String (Dict String OptVal)) (out : Dict String (List V)), (var, o) ∈ l →
        ∃ e, l.foldlM (fun (out : Dict String (List V)) p => do
          let v ← data.getE p.1
          let cols ← columns v ik size
          let arrays ← reduceVar N chunks.length p.1 p.2 cols
          return arrays.foldl (fun (out : Dict String (List V)) (q : String × List V) => out.set q.1 q.2) out) out = .error e := by
      intro l
      induction l with
      | nil => intro _ h; cases h
      | cons p t ih =>
        intro out hm
        rw [List.foldlM_cons]
        cases hb : (do
          let v ← data.getE p.1
          let cols ← columns v ik size
          let arrays ← reduceVar N chunks.length p.1 p.2 cols
          return arrays.foldl (fun (out : Dict String (List V)) (q : String × List V) => out.set q.1 q.2) out :
            Py (Dict String (List V))) with
        | error e => exact ⟨e, rfl⟩
        | ok out' =>
          rcases List.mem_cons.1 hm with rfl | hm
          · exfalso
            obtain ⟨_, _, hb⟩ := bind_eq_ok.1 hb
            obtain ⟨cols, _, hb⟩ := bind_eq_ok.1 hb
            obtain ⟨_, hb, _⟩ := bind_eq_ok.1 hb
            obtain ⟨e, he⟩ := hred cols
            rw [he] at hb
            cases hb
          · exact ih out' hm
    exact key dirs [] ho
  cases hz : zconvolution N absK dist nn tol so junk g data glob select xy z with
  | error e => exact ⟨e, rfl⟩
  | ok r =>
    exfalso
    unfold zconvolution at hz
    rw [hd] at hz
    simp only [Except_bind_ok] at hz
    rw [hpl] at hz
    simp only [Except_bind_ok] at hz
    obtain ⟨ik, _, hz⟩ := bind_eq_ok.1 hz
    obtain ⟨_, _, hz⟩ := bind_eq_ok.1 hz
    obtain ⟨_, hz, _⟩ := bind_eq_ok.1 hz
    obtain ⟨e, he⟩ := hout (chunks.headD []).length ik
    rw [he] at hz
    cases hz

/-- **C47, from the positions.** The same as `C47_zconvolution`, with conditions on the positions of the cells in place of those
on planes and columns: the code accepts the planes (C46), and the cells of each plane are above those of the first one, up to
the tolerance. -/
theorem C47_slice [LinearOrder K] [AddCommGroup K] [IsOrderedAddMonoid K] (N : ZNum P K V) {dist : P → P → K}
    (hd : IsDist dist) (nn : List P → P → Nat) (tol : K) (so : List Int → List Int) (junk : Nat → Int) (g : Grid Q)
    (data : Dict String (List V)) (rms phase snapshot : Bool) (nmode : Int)
    (select : Option (Dict String (List SelItem))) (xy : List P) (z : List K) (first : List Nat)
    (rest : List (List Nat)) (glob : Dict String OptVal) (hglob : glob = defaultOptions rms phase snapshot nmode)
    (hso : ∀ l, (so l).Perm l) (hg : GridWF g) (hsz : ∀ c ∈ g.items, c.2.length < 255)
    (hz : z.length = g.items.length) (hxy : xy.length = g.items.length) (hcell : g.items ≠ [])
    (hdk : data.keys.Nodup) (hlen : ∀ p ∈ data, p.2.length = g.items.length)
    (hsel : SelectionWF data.keys select) (hnc : NoCollision data.keys glob select)
    (hs : IsArgsort z (N.argsort z)) (hpl : planes N (fun x => |x|) tol z = .ok (first :: rest))
    (hself : ∀ p ∈ xy, dist p p ≤ tol)
    (hnn : IsNearest dist (positions xy first) (nn (positions xy first)))
    (hsep : Separated dist tol (positions xy first))
    (hstd : ∀ (c : List P) (p : P), (∀ q ∈ c, dist p q ≤ tol) → N.posStd c ≤ tol)
    (habove : ∀ c ∈ rest, ∃ σ, SameCenters dist tol (positions xy first) (positions xy c) σ)
    (hmode : ∀ var req v, requested data.keys glob select var = some req → req "nmode" = some v →
      numberOf v < (rest.length + 1 : Nat)) :
    IsPlanes z tol (first :: rest) ∧ ∃ ik grid out, Located dist tol xy (first :: rest) ik ∧
      zconvolution N (fun x => |x|) dist nn tol so junk g data glob select xy z = .ok (grid, out) ∧
      grid.items.length = first.length ∧
      (∀ (j i : Nat), first[j]? = some i → shownCell grid j = shownCell g i) ∧
      ∀ n w, out.get? n = some w ↔ ∃ var req a v, requested data.keys glob select var = some req ∧ Asked req a ∧
        n = a.label var ∧ data.get? var = some v ∧
        w.map some = (List.range first.length).map fun j => a.value N (column v ik j) := by
  obtain ⟨chunks, hip, hok, hno⟩ := C46_planes N tol z (by
    intro e; rw [e] at hz; exact hcell (List.length_eq_zero_iff.1 hz.symm)) hs
  by_cases hcond : 2 ≤ chunks.length ∧ (∀ c ∈ chunks, ∀ d ∈ chunks, c.length = d.length) ∧ N.std (spacings N z chunks) ≤ tol
  · have e := hok hcond
    rw [hpl] at e
    obtain rfl := Except.ok.inj e
    have hflat := hip.once
    have hnd : (first :: rest).flatten.Nodup := hflat.nodup_iff.2 List.nodup_range
    have hr : ∀ c ∈ first :: rest, ∀ i ∈ c, i < xy.length := by
      intro c hc i hi
      rw [hxy, ← hz]
      exact List.mem_range.1 (hflat.mem_iff.1 (List.mem_flatten.2 ⟨c, hc, hi⟩))
    obtain ⟨ik, hl1, hl2⟩ := C46_columns N hd xy first rest hr (hip.nonempty first (by simp))
      (fun c hc => (List.nodup_flatten.1 hnd).1 c (List.mem_cons_of_mem _ hc)) hself hnn hsep hstd habove
    obtain ⟨grid, out, h1, h2, h3, h4⟩ := C47_zconvolution N (fun x => |x|) dist nn tol so junk g data rms phase snapshot nmode
      select xy z first rest ik glob hglob hso hg hsz hz hdk hlen hsel hnc hpl hip
      (fun c hc => hcond.2.1 c (List.mem_cons_of_mem _ hc) first (by simp)) hl1 hl2 hmode
    exact ⟨hip, ik, grid, out, hl2, h1, h2, h3, h4⟩
  · have e := hno hcond
    rw [hpl] at e
    cases e

/-! ## Two planes of two cells -/

/-- Reductions of integers (sums for averages, ranges for deviations, half the range for positions, a multiple of the
sum for modes). -/
def intNum : ZNum Int Int Int where
  argsort z := (List.range z.length).insertionSort fun i j => z.getD i 0 ≤ z.getD j 0
  avg l := l.sum / l.length
  std l := (l.map fun x => |x - l.headD 0|).foldl max 0
  posStd l := (l.foldl max (l.headD 0) - l.foldl min (l.headD 0)) / 2
  vavg l := l.sum
  vstd l := (l.map fun x => |x - l.headD 0|).foldl max 0
  vmode k l := k * l.sum
  vphase k l := 1000 + k * l.sum

/-- Four cells, the planes `z = 0` (cells 1 and 2) and `z = 100` (cells 3 and 0). -/
def fourCells : Grid Nat := ⟨[(3, [0, 1]), (3, [2, 3]), (3, [3, 4]), (3, [1, 5])], [10, 11, 12, 13, 14, 15]⟩

def fourZ : List Int := [100, 0, 0, 100]
def fourXY : List Int := [50, 7, 50, 8]

example : planes intNum (fun x => |x|) 2 fourZ = .ok [[1, 2], [0, 3]] := by decide +kernel

/-- The second row is in the order of the first plane. -/
example : locate intNum intDist closest 2 fourXY [[1, 2], [0, 3]] = .ok [[1, 2], [3, 0]] := by decide +kernel

/-- Planes of different sizes are refused, as is a single plane. -/
example : planes intNum (fun x => |x|) 2 [100, 0, 0] = .error .value ∧ planes intNum (fun x => |x|) 2 [0, 1] = .error .value := by
  decide +kernel

def fourData : Dict String (List Int) := [("U", [1, 20, 300, 4000]), ("Q", [5, 6, 7, 8])]

def fourSelect : Option (Dict String (List SelItem)) :=
  some [("U", [.word "no_avg", .word "rms", .opts [("nmode", .int 1)], .word "phase"])]

/-- One variable is selected: no average, but deviation and one mode with its phase. -/
example : zconvolution intNum (fun x => |x|) intDist closest 2 id (fun _ => 0) fourCells fourData
      (defaultOptions false false false 0) fourSelect fourXY fourZ =
    .ok (⟨[(3, [0, 1]), (3, [1, 2])], [12, 13, 14]⟩,
      [("U_k1", [4020, 301]), ("U_k1_phase", [5020, 1301]), ("U_rms", [3980, 299])]) := by decide +kernel

/-- Without selection all variables are averaged. -/
example : zconvolution intNum (fun x => |x|) intDist closest 2 id (fun _ => 0) fourCells fourData
      (defaultOptions false false true 0) none fourXY fourZ =
    .ok (⟨[(3, [0, 1]), (3, [1, 2])], [12, 13, 14]⟩,
      [("U", [20, 300]), ("U_avg", [4020, 301]), ("Q", [6, 7]), ("Q_avg", [14, 12])]) := by decide +kernel

theorem fourSelect_wf : SelectionWF fourData.keys fourSelect := by
  refine ⟨by decide, by decide, ?_⟩
  intro p hp
  simp only [List.mem_singleton] at hp
  subst hp
  intro i hi
  simp only [List.mem_cons, List.not_mem_nil, or_false] at hi
  rcases hi with rfl | rfl | rfl | rfl <;> first | trivial | (unfold ItemWF; decide)

/-- The conditions on planes and columns hold for these cells. -/
example : IsPlanes fourZ 2 [[1, 2], [0, 3]] ∧ Located intDist 2 fourXY [[1, 2], [0, 3]] [[1, 2], [3, 0]] := by
  constructor
  · constructor
    · decide
    · simp only [List.flatten_cons, List.flatten_nil, List.append_nil, List.cons_append, List.nil_append, fourZ]
      refine List.Pairwise.imp (R := fun i j => fourZ.getD i 0 ≤ fourZ.getD j 0) ?_ (by decide)
      intro i j h a b ha hb
      change fourZ[i]? = some a at ha
      change fourZ[j]? = some b at hb
      rw [List.getD_eq_getElem?_getD, List.getD_eq_getElem?_getD, ha, hb] at h
      exact h
    · decide
    · intro c hc
      simp only [List.mem_cons, List.not_mem_nil, or_false] at hc
      rcases hc with rfl | rfl <;> simp [Jump, fourZ]
    · simp [Jump, fourZ]
  · constructor
    · exact .cons (by decide) (.cons (by decide) .nil)
    · intro first hf r hr j i0 i p q h1 h2 h3 h4
      obtain rfl := Option.some.inj hf
      have hj : j < 2 := (List.getElem?_eq_some_iff.1 h1).1
      simp only [List.mem_cons, List.not_mem_nil, or_false] at hr
      have : j = 0 ∨ j = 1 := by omega
      rcases hr with rfl | rfl <;> rcases this with rfl | rfl <;> simp at h1 h2 <;> subst h1 <;> subst h2 <;>
        simp [fourXY] at h3 h4 <;> subst h3 <;> subst h4 <;> decide

/-- The names of the requested arrays are distinct. -/
theorem fourSelect_names : NoCollision fourData.keys (defaultOptions false false false 0) fourSelect := by
  intro var var' req req' h h' a b ha hb hab
  simp only [requested, fourSelect, Option.map_eq_some_iff] at h h'
  obtain ⟨items, h1, rfl⟩ := h
  obtain ⟨items', h1', rfl⟩ := h'
  have e := Dict.mem_of_get? h1
  have e' := Dict.mem_of_get? h1'
  simp only [List.mem_singleton, Prod.mk.injEq] at e e'
  obtain ⟨rfl, rfl⟩ := e
  obtain ⟨rfl, rfl⟩ := e'
  refine ⟨rfl, ?_⟩
  have hk : ∀ p : Product, Asked (resolved (defaultOptions false false false 0)
      [.word "no_avg", .word "rms", .opts [("nmode", .int 1)], .word "phase"]) p → p = .mode 1 ∨ p = .phase 1 ∨ p = .rms := by
    have hn : resolved (defaultOptions false false false 0)
      [.word "no_avg", .word "rms", .opts [("nmode", .int 1)], .word "phase"] "nmode" = some (.int 1) := by decide +kernel
    intro p hp
    cases p with
    | snapshot =>
      obtain ⟨v, h1, h2⟩ := hp
      rw [show resolved (defaultOptions false false false 0)
        [.word "no_avg", .word "rms", .opts [("nmode", .int 1)], .word "phase"] "snapshot" = some (.bool false) from by
          decide +kernel] at h1
      obtain rfl := Option.some.inj h1
      cases h2
    | avg =>
      obtain ⟨v, h1, h2⟩ := hp
      rw [show resolved (defaultOptions false false false 0)
        [.word "no_avg", .word "rms", .opts [("nmode", .int 1)], .word "phase"] "avg" = some (.bool false) from by
          decide +kernel] at h1
      obtain rfl := Option.some.inj h1
      cases h2
    | mode k =>
      obtain ⟨h0, v, h1, h2⟩ := hp
      rw [hn] at h1
      obtain rfl := Option.some.inj h1
      simp only [numberOf] at h2
      left; congr; omega
    | phase k =>
      obtain ⟨⟨h0, v, h1, h2⟩, -⟩ := hp
      rw [hn] at h1
      obtain rfl := Option.some.inj h1
      simp only [numberOf] at h2
      right; left; congr; omega
    | rms => exact .inr (.inr rfl)
  rcases hk a ha with rfl | rfl | rfl <;> rcases hk b hb with rfl | rfl | rfl <;> first | rfl | (revert hab; decide +kernel)

theorem intNum_posStd (c : List Int) (p tol : Int) (h : ∀ q ∈ c, intDist p q ≤ tol) (ht : 0 ≤ tol) :
    intNum.posStd c ≤ tol := by
  have hmax : ∀ (l : List Int) (a : Int), a ≤ p + tol → (∀ q ∈ l, intDist p q ≤ tol) → l.foldl max a ≤ p + tol := by
    intro l
    induction l with
    | nil => intro a ha _; exact ha
    | cons q t ih =>
      intro a ha hl
      have := (abs_le.1 (hl q (by simp))).1
      exact ih _ (max_le ha (by omega)) fun q hq => hl q (List.mem_cons_of_mem _ hq)
  have hmin : ∀ (l : List Int) (a : Int), p - tol ≤ a → (∀ q ∈ l, intDist p q ≤ tol) → p - tol ≤ l.foldl min a := by
    intro l
    induction l with
    | nil => intro a ha _; exact ha
    | cons q t ih =>
      intro a ha hl
      have := (abs_le.1 (hl q (by simp))).2
      exact ih _ (le_min ha (by omega)) fun q hq => hl q (List.mem_cons_of_mem _ hq)
  unfold intNum
  simp only
  cases c with
  | nil => simpa using ht
  | cons a t =>
    have h1 := (abs_le.1 (h a (by simp))).1
    have h2 := (abs_le.1 (h a (by simp))).2
    have := hmax (a :: t) a (by omega) h
    have := hmin (a :: t) a (by omega) h
    simp only [List.headD_cons]
    omega

/-- The hypotheses of `C47_slice` (hence those of C46 and C47) hold for these cells and this selection. -/
example : ∃ grid out, zconvolution intNum (fun x => |x|) intDist closest 2 id (fun _ => 0) fourCells fourData
    (defaultOptions false false false 0) fourSelect fourXY fourZ = .ok (grid, out) ∧ grid.items.length = 2 := by
  have h2 : ∀ (l : List Int) (i : Nat) (a : Int), l.length = 2 → l[i]? = some a → i = 0 ∨ i = 1 := by
    intro l i a hl h
    obtain ⟨h, -⟩ := List.getElem?_eq_some_iff.1 h
    omega
  have hargs : IsArgsort fourZ (intNum.argsort fourZ) := by
    rw [show intNum.argsort fourZ = [1, 2, 0, 3] from by decide +kernel]
    refine ⟨by decide, List.Pairwise.imp (R := fun i j => fourZ.getD i 0 ≤ fourZ.getD j 0) ?_ (by decide)⟩
    intro i j h a b ha hb
    rw [List.getD_eq_getElem?_getD, List.getD_eq_getElem?_getD, ha, hb] at h
    exact h
  have hsep : Separated intDist 2 (positions fourXY [1, 2]) := by
    intro i j a b ha hb hij
    rcases h2 _ i a rfl ha with rfl | rfl <;> rcases h2 _ j b rfl hb with rfl | rfl <;>
      simp [positions, fourXY] at ha hb hij <;> subst ha hb <;> decide
  have habove : ∀ c ∈ [[0, 3]], ∃ σ, SameCenters intDist 2 (positions fourXY [1, 2]) (positions fourXY c) σ := by
    intro c hc
    simp only [List.mem_singleton] at hc
    subst hc
    refine ⟨fun i => 1 - i, rfl, ?_, ?_, ?_⟩
    · intro i hi
      have e1 : (positions fourXY [0, 3]).length = 2 := rfl
      have e2 : (positions fourXY [1, 2]).length = 2 := rfl
      omega
    · intro i j hi hj h
      have e1 : (positions fourXY [0, 3]).length = 2 := rfl
      omega
    · intro i p r hp hr
      rcases h2 _ i p rfl hp with rfl | rfl <;> simp [positions, fourXY] at hp hr <;> subst hp hr <;> decide
  have hmode : ∀ var req v, requested fourData.keys (defaultOptions false false false 0) fourSelect var = some req →
      req "nmode" = some v → numberOf v < (([[0, 3]] : List (List Nat)).length + 1 : Nat) := by
    intro var req v h hv
    simp only [requested, fourSelect, Option.map_eq_some_iff] at h
    obtain ⟨items, h1, rfl⟩ := h
    have e := Dict.mem_of_get? h1
    simp only [List.mem_singleton, Prod.mk.injEq] at e
    obtain ⟨rfl, rfl⟩ := e
    rw [show resolved (defaultOptions false false false 0)
      [.word "no_avg", .word "rms", .opts [("nmode", .int 1)], .word "phase"] "nmode" = some (.int 1) from by
        decide +kernel] at hv
    obtain rfl := Option.some.inj hv
    decide
  obtain ⟨_, ik, grid, out, _, h, hl, _⟩ := C47_slice intNum intDist_isDist closest 2 id (fun _ => 0) fourCells fourData false
    false false 0 fourSelect fourXY fourZ [1, 2] [[0, 3]] _ rfl (fun l => List.Perm.refl l) (by unfold GridWF; decide)
    (by decide) (by decide) (by decide) (by decide) (by decide) (by decide) fourSelect_wf fourSelect_names
    hargs (by decide +kernel) (by decide) (closest_isNearest _ (by decide)) hsep
    (fun c p h => intNum_posStd c p 2 h (by decide)) habove hmode
  exact ⟨grid, out, h, hl⟩

example := C47_options fourData.keys (defaultOptions false false false 0) fourSelect (by decide) fourSelect_wf

theorem fourZ_argsort : IsArgsort fourZ (intNum.argsort fourZ) := by
  rw [show intNum.argsort fourZ = [1, 2, 0, 3] from by decide +kernel]
  refine ⟨by decide, List.Pairwise.imp (R := fun i j => fourZ.getD i 0 ≤ fourZ.getD j 0) ?_ (by decide)⟩
  intro i j h a b ha hb
  rw [List.getD_eq_getElem?_getD, List.getD_eq_getElem?_getD, ha, hb] at h
  exact h

example := C46_planes intNum 2 fourZ (by decide) fourZ_argsort
example := C46_empty intNum (fun x => |x|) 2 (by decide +kernel)

/-- As many modes as planes. -/
example : zconvolution intNum (fun x => |x|) intDist closest 2 id (fun _ => 0) fourCells fourData
    (defaultOptions false false false 2) none fourXY fourZ = .error .index := by decide +kernel

example := C47_unknown ["U", "Q"] (defaultOptions false false false 0) [("U", []), ("V", [.word "rms"])] ⟨"V", by decide, by decide⟩
example := C47_too_many_modes intNum 2 "U" (defaultOptions false false false 2) [[1, 2]] (.int 2)
  (by
    intro k hk
    simp only [List.mem_cons, List.not_mem_nil, or_false] at hk
    rcases hk with rfl | rfl | rfl | rfl | rfl <;> exact ⟨_, rfl⟩) (by decide) (by decide) (by decide)

end Cfd.Vtk
