import Verif.Properties.Interrupt

/-
C122: a file that is already sealed is sealed again, any number of times, with other initial vectors,
round numbers, dependency modes and block sizes.
-/

namespace PoS

/-- One use of `seal`: the parameter set and the initial vector it is called with. -/
abbrev Layer := PosPara × Bytes

/-- `seal` is called once for each layer, each time on the file the call before has left.  The result is
the last file and the values handed to the delay encoder in all calls together. -/
def sealLayers (H : Bytes → Bytes) (key : Int) : List Layer → Bytes → R (Bytes × List Nat)
  | [], file => .ok (file, [])
  | (params, iv) :: more, file => do
    let st ← sealFile H params file key iv
    let (out, log) ← sealLayers H key more st.file
    .ok (out, st.log ++ log)

/-- `unseal` is called once for each layer. -/
def unsealLayers (H : Bytes → Bytes) (key : Int) : List Layer → Bytes → R Bytes
  | [], file => .ok file
  | (params, iv) :: more, file => do
    let out ← unsealFile H params file key iv
    unsealLayers H key more out

theorem unsealLayers_append (H : Bytes → Bytes) (key : Int) (a b : List Layer) (file : Bytes) :
    unsealLayers H key (a ++ b) file = (unsealLayers H key a file).bind (unsealLayers H key b) := by
  induction a generalizing file with
  | nil => rfl
  | cons l a ih =>
    obtain ⟨params, iv⟩ := l
    rw [List.cons_append, unsealLayers, unsealLayers]
    cases h : unsealFile H params file key iv with
    | error e => rfl
    | ok out => exact ih out

/-- The parameter set works with the key, in units of `u` bytes on disk, `m` of them in all. -/
structure LayerOk (p u m : Nat) (params : PosPara) : Prop where
  works : ∃ n c, Config params p n c ∧ n * c = m ∧ LongModeOk params n ∧ ShortModeOk params n c
  unit : params.unitPl = u
  hash : params.modeL = 0

/-- What `seal` leaves is again a file of residues, whatever it met on the way: it can be sealed again. -/
theorem sealed_again {H : Bytes → Bytes} (hH : ∀ x, (H x).length = 32) {params : PosPara} {p u m : Nat}
    (ok : LayerOk p u m params) {file iv : Bytes} (hlen : m * u ≤ file.length)
    (hu : ∀ j < m, leNat (readFile file (j * u) u) < p) :
    ∃ st, sealFile H params file (p : Int) iv = .ok st ∧ st.file.length = file.length ∧
      (∀ j < m, leNat (readFile st.file (j * u) u) < p) ∧
      (∀ x, m * u ≤ x → st.file[x]? = file[x]?) ∧
      ((∀ v ∈ st.log, v ≠ 0) → unsealFile H params st.file (p : Int) iv = .ok file) := by
  obtain ⟨⟨n, c, cfg, hm, hL, hS⟩, rfl, hmode⟩ := ok
  subst hm
  have hu' : UnitsBelow params p n c file := hu
  have hlen' : n * params.blockPl ≤ file.length := by rw [cfg.block_pl, ← Nat.mul_assoc]; exact hlen
  obtain ⟨st, q1, -, -, q4, q5⟩ := C64_seal_exact H hH params p n c cfg hL hS file iv hlen' hu'
    (sealingOf H params p c iv (longOf H params n) (shortOf H params n c)) ⟨rfl, rfl, rfl, rfl, rfl, rfl, rfl, rfl, rfl⟩
  have h0 : SealInv H params p n c file 0 { file := file, ids := List.replicate n [], log := [] } :=
    sealInv_zero (fun i hi => hu'.blockOk cfg.layout hi)
  have hsu : UnitsBelow params p n c st.file := by
    have a1 := q1
    rw [sealFile_eq cfg] at a1
    obtain ⟨iL, iS, -, hs', hrun⟩ := sealPrefix_eq cfg a1
    exact BlockOk.unitsBelow cfg.layout cfg.c_pos
      (seal_trace hH cfg.keyOk cfg.layout (idxsSOf_shortOk hs') (by omega) h0 (Nat.le_refl n) hrun).1.units
  refine ⟨st, q1, ?_, hsu, ?_, fun hlog => ?_⟩
  · exact q4
  · intro x hx
    exact q5 x (by rw [cfg.block_pl, ← Nat.mul_assoc]; exact hx)
  · rw [unsealFile_eq cfg]
    rw [sealFile_eq cfg] at q1
    exact unsealFrom_sealPrefix hH cfg (Or.inl hmode) hlen' hu' (Nat.le_refl n) q1 hlog

/-- Any number of layers: every call of `seal` succeeds, the length and everything behind the `m` units
stay, the file is one of residues again; and the layers come off in the opposite order, unless one of the
calls met the residue zero. -/
theorem C122_layers (H : Bytes → Bytes) (hH : ∀ x, (H x).length = 32) (p u m : Nat) (layers : List Layer)
    (ok : ∀ l ∈ layers, LayerOk p u m l.1) (file : Bytes) (hlen : m * u ≤ file.length)
    (hu : ∀ j < m, leNat (readFile file (j * u) u) < p) :
    ∃ out log, sealLayers H (p : Int) layers file = .ok (out, log) ∧ out.length = file.length ∧
      (∀ j < m, leNat (readFile out (j * u) u) < p) ∧ (∀ x, m * u ≤ x → out[x]? = file[x]?) ∧
      ((∀ v ∈ log, v ≠ 0) → unsealLayers H (p : Int) layers.reverse out = .ok file) := by
  induction layers generalizing file with
  | nil => exact ⟨file, [], rfl, rfl, hu, fun _ _ => rfl, fun _ => rfl⟩
  | cons l more ih =>
    obtain ⟨params, iv⟩ := l
    obtain ⟨st, a1, a2, a3, a4, a5⟩ := sealed_again (iv := iv) hH (ok _ List.mem_cons_self) hlen hu
    obtain ⟨out, log, b1, b2, b3, b4, b5⟩ := ih (fun l hl => ok l (List.mem_cons_of_mem _ hl)) st.file (by omega) a3
    refine ⟨out, st.log ++ log, ?_, by omega, b3, fun x hx => by rw [b4 x hx, a4 x hx], fun h => ?_⟩
    · rw [sealLayers, a1, bind_ok, b1, bind_ok]
    · rw [List.reverse_cons, unsealLayers_append, b5 (fun v hv => h v (List.mem_append_right _ hv))]
      show unsealLayers H p [(params, iv)] st.file = .ok file
      rw [unsealLayers, a5 (fun v hv => h v (List.mem_append_left _ hv)), bind_ok, unsealLayers]

/-- Taking off only the last layers: the calls of `seal` split anywhere, and unsealing the layers behind
the cut gives back the file as it was at the cut.  Only those layers must not have met zero. -/
theorem C122_last_layers (H : Bytes → Bytes) (hH : ∀ x, (H x).length = 32) (p u m : Nat) (first last : List Layer)
    (ok : ∀ l ∈ first ++ last, LayerOk p u m l.1) (file : Bytes) (hlen : m * u ≤ file.length)
    (hu : ∀ j < m, leNat (readFile file (j * u) u) < p) :
    ∃ mid log out log', sealLayers H (p : Int) first file = .ok (mid, log) ∧
      sealLayers H (p : Int) last mid = .ok (out, log') ∧
      sealLayers H (p : Int) (first ++ last) file = .ok (out, log ++ log') ∧
      ((∀ v ∈ log', v ≠ 0) → unsealLayers H (p : Int) last.reverse out = .ok mid) := by
  induction first generalizing file with
  | nil =>
    obtain ⟨out, log, b1, b2, b3, b4, b5⟩ := C122_layers H hH p u m last ok file hlen hu
    exact ⟨file, [], out, log, rfl, b1, b1, b5⟩
  | cons l more ih =>
    obtain ⟨params, iv⟩ := l
    obtain ⟨st, a1, a2, a3, a4, a5⟩ := sealed_again (iv := iv) hH (ok _ List.mem_cons_self) hlen hu
    obtain ⟨mid, log, out, log', b1, b2, b3, b4⟩ :=
      ih (fun l hl => ok l (List.mem_cons_of_mem _ hl)) st.file (by omega) a3
    refine ⟨mid, st.log ++ log, out, log', ?_, b2, ?_, b4⟩
    · rw [sealLayers, a1, bind_ok, b1, bind_ok]
    · rw [List.cons_append, sealLayers, a1, bind_ok, b3, bind_ok, List.append_assoc]

/-- From the file of the user and back: padding, any number of layers, taking the layers off in the
opposite order, stripping the padding. -/
theorem C122_stored (H : Bytes → Bytes) (hH : ∀ x, (H x).length = 32) (params : PosPara) (p n c : Nat)
    (cfg : Config params p n c) (layers : List Layer) (ok : ∀ l ∈ layers, LayerOk p params.unitPl (n * c) l.1)
    (origin : Bytes) (hlen : origin.length = params.dataL) :
    ∃ padded out log, copyAndPad origin params.dataL params.unitL = .ok padded ∧
      sealLayers H (p : Int) layers padded = .ok (out, log) ∧
      ((∀ v ∈ log, v ≠ 0) → ∃ plain, unsealLayers H (p : Int) layers.reverse out = .ok plain ∧
        copyAndCompress plain params.dataL params.unitL params.unitPl = .ok origin) := by
  obtain ⟨padded, g1, g2, g3, g4⟩ := padded_unitsBelow cfg hlen
  obtain ⟨out, log, b1, b2, b3, b4, b5⟩ := C122_layers H hH p params.unitPl (n * c) layers ok padded
    (by rw [Nat.mul_assoc, ← cfg.block_pl]; omega) g3
  exact ⟨padded, out, log, g1, b1, fun h => ⟨padded, b5 h, g4⟩⟩

/-- The shipped parameter sets with the 512-bit key: one layer for each initial vector of a list, and the
same list backwards. -/
theorem C122_shipped (H : Bytes → Bytes) (hH : ∀ x, (H x).length = 32) (l : Nat) (ivs : List Bytes)
    (origin : Bytes) (hlen : origin.length = (genPosdata l).dataL) :
    ∃ padded out log, copyAndPad origin (genPosdata l).dataL (genPosdata l).unitL = .ok padded ∧
      sealLayers H P_512 (ivs.map (fun iv => (genPosdata l, iv))) padded = .ok (out, log) ∧
      ((∀ v ∈ log, v ≠ 0) → ∃ plain,
        unsealLayers H P_512 (ivs.reverse.map (fun iv => (genPosdata l, iv))) out = .ok plain ∧
        copyAndCompress plain (genPosdata l).dataL (genPosdata l).unitL (genPosdata l).unitPl = .ok origin) := by
  obtain ⟨c, hc, cfg, hL, hS⟩ := genPosdata_config l _ prime_P_512 (by norm_num) (by norm_num) (by norm_num)
  obtain ⟨mL, mS⟩ := hashModes_ok (params := genPosdata l) (n := 256) (c := c) hL hS (by omega) (by omega)
  have key := C122_stored H hH _ _ 256 c cfg (ivs.map (fun iv => (genPosdata l, iv))) (by
    intro x hx
    rw [List.mem_map] at hx
    obtain ⟨iv, -, rfl⟩ := hx
    exact ⟨⟨256, c, cfg, rfl, mL, mS⟩, rfl, hL⟩) origin hlen
  rw [← List.map_reverse] at key
  exact key

/-- Two layers over a small file, with different block sizes (3 blocks of one unit, one block of 3
units), round numbers and initial vectors. -/
def twoLayers : List Layer := [(toyParams 3 1 0 0 1 1 2, [1, 2, 3]), (toyParams 1 3 0 0 1 1 1, [4, 5])]

def layersMatter : Bool :=
  match copyAndPad (toyFile 189) 189 63 with
  | .ok padded => (match sealLayers toyHash P_512 twoLayers padded with
    | .ok (out, log) => (match unsealLayers toyHash P_512 twoLayers.reverse out,
        unsealLayers toyHash P_512 twoLayers out with
      | .ok back, .ok wrong => log.all (fun v => v != 0) && back == padded && wrong != padded && out != padded
      | _, _ => false)
    | _ => false)
  | _ => false

set_option maxRecDepth 100000 in
/-- The order matters: taking the layers off in the order in which they were put on does not give the
file back. -/
theorem C122_order : layersMatter = true := by
  decide +kernel

/-- The two layers meet the hypotheses of the theorems above. -/
example : ∃ p : Nat, (p : Int) = P_512 ∧ ∀ l ∈ twoLayers, LayerOk p 64 3 l.1 := by
  obtain ⟨p, hp, cfg⟩ := toy_config 3 1 0 0 1 1 2 (by norm_num)
  obtain ⟨q, hq, cfg'⟩ := toy_config 1 3 0 0 1 1 1 (by norm_num)
  have hpq : q = p := by
    have := hq.trans hp.symm
    exact_mod_cast this
  subst hpq
  refine ⟨q, hp, fun l hl => ?_⟩
  rw [twoLayers] at hl
  rcases List.mem_cons.mp hl with rfl | hl
  · have h := hashModes_ok (params := toyParams 3 1 0 0 1 1 2) (n := 3) (c := 1) rfl rfl (by omega) (by omega)
    exact ⟨⟨3, 1, cfg, rfl, h.1, h.2⟩, rfl, rfl⟩
  · rcases List.mem_cons.mp hl with rfl | hl
    · have h := hashModes_ok (params := toyParams 1 3 0 0 1 1 1) (n := 1) (c := 3) rfl rfl (by omega) (by omega)
      exact ⟨⟨1, 3, cfg', rfl, h.1, h.2⟩, rfl, rfl⟩
    · cases hl

end PoS
