import Verif.Examples.Runs
import Verif.Examples.Exit
import Verif.Props.Rerun

/-! # Concrete instances of C92: the runs of the other examples can be interrupted and started again -/

namespace Dissect
noncomputable section
namespace Examples

/-- Everything below `/out/x/` lies in the directory `out` of the root. -/
theorem out_head (fs : Fs) (r : Str) : ∃ t, fs.resolve (cs!"/out/x" ++ '/' :: r) = cs!"out" :: t := by
  refine ⟨cs!"x" :: pathComps r, ?_⟩
  have h : isAbs (cs!"/out/x" ++ '/' :: r) = true := by simp [isAbs]
  unfold Fs.resolve
  rw [if_pos h, pathComps_slash]
  have : pathComps cs!"/out/x" = [cs!"out", cs!"x"] := by decide
  rw [this]
  rfl

/-- The files the examples read. -/
def readFiles : List Str := [cs!"/data/in.pkl", cs!"/data/in.pkl.gz", cs!"/data/in.rows", cs!"/data/in.cols", cs!"/data/m.pkl",
  cs!"/data/pairs.txt", cs!"/data/words.txt", cs!"/data/tr.txt", cs!"/cores"]

theorem apart_out {O : List Str → Prop} (hO : ∀ n, O n → ∃ t, n = cs!"out" :: t) {f : Str} (hf : f ∈ readFiles) :
    Apart demoFs O f := by
  intro n hn hp
  obtain ⟨t, rfl⟩ := hO n hn
  have : ∀ f ∈ readFiles, ∃ a r, demoFs.resolve f = a :: r ∧ a ≠ cs!"out" := by
    intro f hf
    simp only [readFiles, List.mem_cons, List.not_mem_nil, or_false] at hf
    rcases hf with rfl | rfl | rfl | rfl | rfl | rfl | rfl | rfl | rfl <;> exact ⟨_, _, rfl, by decide⟩
  obtain ⟨a, r, h1, h2⟩ := this f hf
  rw [h1] at hp
  exact h2 (List.cons_prefix_cons.1 hp).1

theorem fileOf_out {r : Str} {n : List Str} (h : FileOf demoFs (cs!"/out/x" ++ '/' :: r) n) : ∃ t, n = cs!"out" :: t := by
  obtain ⟨e, -, rfl⟩ := h
  have := out_head demoFs (r ++ ['.'] ++ e)
  simpa using this

theorem core_out {ws ss rs ns : List (Option Str)} {n : List Str} (h : CoreOutput demoFs cs!"in" cs!"/out/x" ws ss rs ns n) :
    ∃ t, n = cs!"out" :: t := by
  obtain ⟨ch, -, h⟩ := h
  refine fileOf_out (r := cs!"CORE_SS." ++ cs!"in" ++ dotted ch.w ++ dotted ch.s ++ dotted ch.r ++ dotted ch.n) ?_
  simpa [coreFile] using h

theorem periph_out {core : Str} {n : List Str} (h : PeriphOutput demoFs cs!"in" cs!"/out/x" core n) : ∃ t, n = cs!"out" :: t := by
  obtain ⟨st, -, h⟩ := h
  refine fileOf_out (r := cs!"PER_SS." ++ cs!"in" ++ ['.'] ++ st) ?_
  simpa [periphFile] using h

theorem sims_out {base d : Str} {ms : List Str} {n : List Str} (h : SimsOutput demoFs base cs!"/out/x" d ms n) :
    ∃ t, n = cs!"out" :: t := by
  obtain ⟨m, sim, -, -, rfl⟩ := h
  have := out_head demoFs (cs!"SIMS." ++ base ++ ['.'] ++ d ++ ['.'] ++ m)
  simpa [simsFile] using this

theorem neigh_out {base d m : Str} {n : List Str} (h : n = demoFs.resolve (neighboursFile cs!"/out/x" base d m)) :
    ∃ t, n = cs!"out" :: t := by
  subst h
  have := out_head demoFs (cs!"NEIGHBOURS." ++ base ++ ['.'] ++ d ++ ['.'] ++ m)
  simpa [neighboursFile] using this

theorem train_out {m base : Str} {n : List Str} (h : TrainOutput demoFs (trainedFile cs!"/out/x" m base) n) :
    ∃ t, n = cs!"out" :: t := by
  obtain ⟨p, hp, rfl⟩ := h
  have : ∃ r, p = cs!"/out/x" ++ '/' :: (cs!"TRAINED_COMP_MODEL." ++ m ++ ['.'] ++ base ++ r) := by
    simp only [paramFiles, List.mem_cons, List.mem_map] at hp
    rcases hp with rfl | rfl | ⟨e, -, rfl⟩
    · exact ⟨cs!".pkl", by simp [trainedFile]⟩
    · exact ⟨cs!".params", by simp [trainedFile]⟩
    · exact ⟨cs!".params" ++ ['.'] ++ e, by simp [trainedFile]⟩
  obtain ⟨r, rfl⟩ := this
  exact out_head _ _

theorem apply_out {base : Str} {n : List Str} (h : ApplyOutput demoFs cs!"/out/x" base n) : ∃ t, n = cs!"out" :: t := by
  obtain ⟨m, cls, -, h⟩ := h
  refine fileOf_out (r := cs!"COMPOSED_SS." ++ cls ++ ['.'] ++ base) ?_
  simpa [composedFile] using h

theorem in_files {f : Str} (h : f ∈ inputFiles cs!"/data/in" cs!"pkl") : f ∈ readFiles := by
  revert f; decide

/-- `build_core_space` with two weightings and two selections. -/
example : Restartable (fun h => buildSpacesR demo h cs!"/data/in" cs!"pkl" cs!"/out/x" none ws2 ss2 [none] [none] false) demoFs :=
  C92_build_core_space demoFs_ok in_base (fun _ hf => apart_out (fun _ => core_out) (in_files hf))

/-- Spelled out for a single state: the run succeeds, and starting it again after a kill gives the same disk. -/
example : ∃ fs', (buildSpacesR demo demoFs cs!"/data/in" cs!"pkl" cs!"/out/x" none ws2 ss2 [none] [none] false).out = .ok fs' ∧
    ∀ g, (buildSpacesR demo demoFs cs!"/data/in" cs!"pkl" cs!"/out/x" none ws2 ss2 [none] [none] false).seen g →
      ∃ g', (buildSpacesR demo g cs!"/data/in" cs!"pkl" cs!"/out/x" none ws2 ss2 [none] [none] false).out = .ok g' ∧ SameDisk g' fs' := by
  obtain ⟨fs', h⟩ := core_run sumModel
  rw [← buildSpacesR_out] at h
  exact ⟨fs', h, fun g hg => C92_build_core_space demoFs_ok in_base
    (fun _ hf => apart_out (fun _ => core_out) (in_files hf)) fs' g h hg⟩

example : Restartable (fun h => buildPeriphR demo h cs!"/data/in" cs!"pkl" cs!"/out/x" none cs!"/data/in.pkl" false) demoFs :=
  C92_build_peripheral_space demoFs_ok in_base (fun f hf => apart_out (fun _ => periph_out) (by
    rcases List.mem_cons.1 hf with rfl | hf
    · decide
    · exact in_files hf))

example : Restartable (fun h => buildPeriphBatchR demo h cs!"/data/in" cs!"pkl" cs!"/out/x" none cs!"/cores" cs!"i" false) demoFs :=
  C92_build_peripheral_space_batch demoFs_ok in_base (fun f hf => apart_out (fun _ ⟨_, h⟩ => periph_out h) (by
    rcases List.mem_cons.1 hf with rfl | hf
    · decide
    · exact in_files hf))

example : Restartable (fun h => computeSimR demo cs!"/data/pairs.txt" [cs!"2", cs!"3"] cs!"/out/x" [cs!"lin", cs!"foo"]
    [cs!"/data/in.pkl"] h) demoFs :=
  C92_compute_similarities demoFs_ok pairs_base in_name (fun f hf => apart_out (fun _ => sims_out) (by
    revert f; decide))

example : Restartable (fun h => computeSimBatchR demo cs!"/data/pairs.txt" [cs!"2", cs!"3"] cs!"/out/x" [cs!"lin", cs!"foo"]
    cs!"/cores" h) demoFs :=
  C92_compute_similarities_batch demoFs_ok pairs_base (fun f hf => apart_out (fun _ ⟨_, h⟩ => sims_out h) (by
    revert f; decide))

example : Restartable (fun h => computeNeighboursR demo cs!"/data/words.txt" 1 cs!"/out/x" cs!"cos" [cs!"/data/in.pkl"] h) demoFs :=
  C92_compute_neighbours demoFs_ok words_base in_name (fun f hf => apart_out (fun _ => neigh_out) (by
    revert f; decide))

theorem tr_base : IsBase cs!"/data/tr.txt" cs!"tr.txt" := data_base (nm := cs!"tr.txt") (by decide)

example : Restartable (fun h => trainModelR demo h cs!"/data/tr.txt" cs!"/out/x" cs!"full_add" [cs!"/data/in.pkl"]
    cs!"/data/in.pkl" (some cs!"ridge") false true (.num 2) none false) demoFs :=
  C92_train_composition demoFs_ok tr_base (fun f hf => apart_out (fun _ => train_out) (by
    revert f; decide))

example : Restartable (fun h => applyModelR demo h cs!"/data/tr.txt" cs!"/out/x" none (some cs!"/data/m.pkl") [cs!"/data/in.pkl"]
    none none none none) demoFs :=
  C92_apply_composition demoFs_ok tr_base (fun f hf => apart_out (fun _ => apply_out) (by
    revert f; decide))

/-! ## The scripts -/

/-- A command line of options only names no configuration file. -/
theorem no_config {c : Cli} {docs : List DocOpt} (hc : (c, docs) ∈ documentedScripts) {gs : List Given}
    (hg : ∀ g ∈ gs, g.Valid docs) {f : Str} : ¬ NamesConfig c (gs.map Given.render).flatten f := by
  rintro ⟨o, h⟩
  have := getopt_givens (documentedScripts_ok _ hc) (getopt_positional (short := c.short) (longs := c.longs) (tail := [])
    (by intro a ha; cases ha)) hg
  rw [List.append_nil, h] at this
  simp at this

theorem out_or_log {O : List Str → Prop} (hO : ∀ n, O n → ∃ t, n = cs!"out" :: t) {log : Option Str}
    (hl : ∀ f, log = some f → ∃ t, demoFs.resolve f = cs!"out" :: t) (n : List Str) (h : WithLog demoFs log O n) :
    ∃ t, n = cs!"out" :: t := by
  rcases h with h | ⟨f, h, rfl⟩
  · exact hO n h
  · exact hl f h

/-- `build_core_space.py -i /data/in -o /out/x --input_format=pkl`. -/
example : Restartable (fun h => mainCoreR demo h [cs!"-i", cs!"/data/in", cs!"-o", cs!"/out/x", cs!"--input_format=pkl"]) demoFs := by
  have hg : ∀ g ∈ ([⟨docCore[0], .shortSep 'i', cs!"/data/in"⟩, ⟨docCore[1], .shortSep 'o', cs!"/out/x"⟩, ⟨docCore[7], .longEq, cs!"pkl"⟩] : List Given), g.Valid docCore := by
    intro g hg
    simp only [List.mem_cons, List.not_mem_nil, or_false] at hg
    rcases hg with rfl | rfl | rfl <;> simp [Given.Valid, docCore]
  have hc : (cliCore, docCore) ∈ documentedScripts := by simp [documentedScripts]
  obtain ⟨st, h1, h2⟩ := parses hc demo demoFs _ hg
  have hi : st cs!"in_file_prefix" = .str cs!"/data/in" := h2 docCore[0] (by simp [docCore])
  have ho : st cs!"out_dir" = .str cs!"/out/x" := h2 docCore[1] (by simp [docCore])
  have hf : st cs!"in_format" = .str cs!"pkl" := h2 docCore[7] (by simp [docCore])
  have hl : st cs!"log_file" = .none := h2 docCore[6] (by simp [docCore])

  exact C92_main_core demoFs_ok h1 (by rw [hi]; rfl) in_base (by rw [ho]; rfl) (by rw [hf]; rfl) (fun f hf => apart_out
    (out_or_log (fun _ => core_out) (by rw [hl]; intro f hf; cases hf)) (in_files (hf.resolve_right (no_config hc hg))))

/-- `build_peripheral_space.py` with one core space and a log file in the output directory. -/
example : Restartable (fun h => mainPeriphR demo h [cs!"-i", cs!"/data/in", cs!"-o", cs!"/out/x", cs!"-c", cs!"/data/in.pkl", cs!"-l", cs!"/out/x/log", cs!"--input_format=pkl"]) demoFs := by
  have hg : ∀ g ∈ ([⟨docPeriph[0], .shortSep 'i', cs!"/data/in"⟩, ⟨docPeriph[1], .shortSep 'o', cs!"/out/x"⟩, ⟨docPeriph[2], .shortSep 'c', cs!"/data/in.pkl"⟩, ⟨docPeriph[5], .shortSep 'l', cs!"/out/x/log"⟩, ⟨docPeriph[6], .longEq, cs!"pkl"⟩] : List Given), g.Valid docPeriph := by
    intro g hg
    simp only [List.mem_cons, List.not_mem_nil, or_false] at hg
    rcases hg with rfl | rfl | rfl | rfl | rfl <;> simp [Given.Valid, docPeriph]
  have hc : (cliPeriph, docPeriph) ∈ documentedScripts := by simp [documentedScripts]
  obtain ⟨st, h1, h2⟩ := parses hc demo demoFs _ hg
  have hi : st cs!"in_file_prefix" = .str cs!"/data/in" := h2 docPeriph[0] (by simp [docPeriph])
  have ho : st cs!"out_dir" = .str cs!"/out/x" := h2 docPeriph[1] (by simp [docPeriph])
  have hf : st cs!"in_format" = .str cs!"pkl" := h2 docPeriph[6] (by simp [docPeriph])
  have hl : st cs!"log_file" = .str cs!"/out/x/log" := h2 docPeriph[5] (by simp [docPeriph])
  have hcore : st cs!"core_space_file" = .str cs!"/data/in.pkl" := h2 docPeriph[2] (by simp [docPeriph])
  have hd : st cs!"core_in_dir" = .none := h2 docPeriph[3] (by simp [docPeriph])

  refine C92_main_peripheral demoFs_ok h1 (by rw [hi]; rfl) in_base (by rw [ho]; rfl) (by rw [hf]; rfl) (by rw [hd]; rfl)
    (by rw [hcore]; rfl) (fun f hf => apart_out (out_or_log (fun _ => periph_out) (by
      rw [hl]; intro f hf; cases hf; exact out_head demoFs cs!"log")) ?_)
  rcases List.mem_cons.1 (hf.resolve_right (no_config hc hg)) with rfl | hf
  · decide
  · exact in_files hf

/-- The same for all core spaces of a directory. -/
example : Restartable (fun h => mainPeriphR demo h [cs!"-i", cs!"/data/in", cs!"-o", cs!"/out/x", cs!"--core_in_dir", cs!"/cores", cs!"-l", cs!"/out/x/log", cs!"--input_format=pkl"]) demoFs := by
  have hg : ∀ g ∈ ([⟨docPeriph[0], .shortSep 'i', cs!"/data/in"⟩, ⟨docPeriph[1], .shortSep 'o', cs!"/out/x"⟩, ⟨docPeriph[3], .longSep, cs!"/cores"⟩, ⟨docPeriph[5], .shortSep 'l', cs!"/out/x/log"⟩, ⟨docPeriph[6], .longEq, cs!"pkl"⟩] : List Given), g.Valid docPeriph := by
    intro g hg
    simp only [List.mem_cons, List.not_mem_nil, or_false] at hg
    rcases hg with rfl | rfl | rfl | rfl | rfl <;> simp [Given.Valid, docPeriph]
  have hc : (cliPeriph, docPeriph) ∈ documentedScripts := by simp [documentedScripts]
  obtain ⟨st, h1, h2⟩ := parses hc demo demoFs _ hg
  have hi : st cs!"in_file_prefix" = .str cs!"/data/in" := h2 docPeriph[0] (by simp [docPeriph])
  have ho : st cs!"out_dir" = .str cs!"/out/x" := h2 docPeriph[1] (by simp [docPeriph])
  have hf : st cs!"in_format" = .str cs!"pkl" := h2 docPeriph[6] (by simp [docPeriph])
  have hl : st cs!"log_file" = .str cs!"/out/x/log" := h2 docPeriph[5] (by simp [docPeriph])
  have hd : st cs!"core_in_dir" = .str cs!"/cores" := h2 docPeriph[3] (by simp [docPeriph])

  refine C92_main_peripheral_batch demoFs_ok h1 (by rw [hi]; rfl) in_base (by rw [ho]; rfl) (by rw [hf]; rfl) (by rw [hd]; rfl)
    (fun f hf => apart_out (out_or_log (fun _ ⟨_, h⟩ => periph_out h) (by
      rw [hl]; intro f hf; cases hf; exact out_head demoFs cs!"log")) ?_)
  rcases List.mem_cons.1 (hf.resolve_right (no_config hc hg)) with rfl | hf
  · decide
  · exact in_files hf

/-- `train_composition.py -i /data/tr.txt -o /out/x -m full_add -a /data/in.pkl -p /data/in.pkl`. -/
example : Restartable (fun h => mainTrainR demo h [cs!"-i", cs!"/data/tr.txt", cs!"-o", cs!"/out/x", cs!"-m", cs!"full_add", cs!"-a", cs!"/data/in.pkl", cs!"-p", cs!"/data/in.pkl"]) demoFs := by
  have hg : ∀ g ∈ ([⟨docTrain[0], .shortSep 'i', cs!"/data/tr.txt"⟩, ⟨docTrain[1], .shortSep 'o', cs!"/out/x"⟩, ⟨docTrain[2], .shortSep 'm', cs!"full_add"⟩, ⟨docTrain[7], .shortSep 'a', cs!"/data/in.pkl"⟩, ⟨docTrain[8], .shortSep 'p', cs!"/data/in.pkl"⟩] : List Given), g.Valid docTrain := by
    intro g hg
    simp only [List.mem_cons, List.not_mem_nil, or_false] at hg
    rcases hg with rfl | rfl | rfl | rfl | rfl <;> simp [Given.Valid, docTrain]
  have hc : (cliTrain, docTrain) ∈ documentedScripts := by simp [documentedScripts]
  obtain ⟨st, h1, h2⟩ := parses hc demo demoFs _ hg
  have hi : st cs!"in_file" = .str cs!"/data/tr.txt" := h2 docTrain[0] (by simp [docTrain])
  have ho : st cs!"out_dir" = .str cs!"/out/x" := h2 docTrain[1] (by simp [docTrain])
  have hm : st cs!"model" = .str cs!"full_add" := h2 docTrain[2] (by simp [docTrain])
  have ha : st cs!"arg_space" = .list [cs!"/data/in.pkl"] := h2 docTrain[7] (by simp [docTrain])
  have hp : st cs!"phrase_space" = .str cs!"/data/in.pkl" := h2 docTrain[8] (by simp [docTrain])
  have hl : st cs!"log_file" = .none := h2 docTrain[10] (by simp [docTrain])

  refine C92_main_train demoFs_ok h1 (by rw [hi]; rfl) tr_base (by rw [ho]; rfl) (by rw [hm]; rfl) (by rw [ha]; rfl)
    (by rw [hp]; rfl) (fun f hf => apart_out (out_or_log (fun _ => train_out) (by rw [hl]; intro f hf; cases hf)) ?_)
  have := hf.resolve_right (no_config hc hg)
  clear hf
  revert f
  decide

/-- `apply_composition.py -i /data/tr.txt -o /out/x --load_model /data/m.pkl -a /data/in.pkl`. -/
example : Restartable (fun h => mainApplyR demo h [cs!"-i", cs!"/data/tr.txt", cs!"-o", cs!"/out/x", cs!"--load_model", cs!"/data/m.pkl", cs!"-a", cs!"/data/in.pkl"]) demoFs := by
  have hg : ∀ g ∈ ([⟨docApply[0], .shortSep 'i', cs!"/data/tr.txt"⟩, ⟨docApply[1], .shortSep 'o', cs!"/out/x"⟩, ⟨docApply[6], .longSep, cs!"/data/m.pkl"⟩, ⟨docApply[7], .shortSep 'a', cs!"/data/in.pkl"⟩] : List Given), g.Valid docApply := by
    intro g hg
    simp only [List.mem_cons, List.not_mem_nil, or_false] at hg
    rcases hg with rfl | rfl | rfl | rfl <;> simp [Given.Valid, docApply]
  have hc : (cliApply, docApply) ∈ documentedScripts := by simp [documentedScripts]
  obtain ⟨st, h1, h2⟩ := parses hc demo demoFs _ hg
  have hi : st cs!"in_file" = .str cs!"/data/tr.txt" := h2 docApply[0] (by simp [docApply])
  have ho : st cs!"out_dir" = .str cs!"/out/x" := h2 docApply[1] (by simp [docApply])
  have hm : st cs!"trained_model" = .str cs!"/data/m.pkl" := h2 docApply[6] (by simp [docApply])
  have ha : st cs!"arg_space" = .list [cs!"/data/in.pkl"] := h2 docApply[7] (by simp [docApply])
  have hl : st cs!"log_file" = .none := h2 docApply[9] (by simp [docApply])

  refine C92_main_apply demoFs_ok h1 (by rw [hi]; rfl) tr_base (by rw [ho]; rfl) (by rw [ha]; rfl)
    (fun f hf => apart_out (out_or_log (fun _ => apply_out) (by rw [hl]; intro f hf; cases hf)) ?_)
  have := hf.resolve_right (no_config hc hg)
  rw [hm] at this
  clear hf
  revert f
  decide

/-- `compute_neighbours.py -m cos -i /data/words.txt -o /out/x -s /data/in.pkl -n 1`. -/
example : Restartable (fun h => mainNeighR demo h [cs!"-m", cs!"cos", cs!"-i", cs!"/data/words.txt", cs!"-o", cs!"/out/x", cs!"-s",
    cs!"/data/in.pkl", cs!"-n", cs!"1"]) demoFs := by
  have hg : ∀ g ∈ ([⟨docNeigh[0], .shortSep 'i', cs!"/data/words.txt"⟩, ⟨docNeigh[1], .shortSep 'o', cs!"/out/x"⟩,
      ⟨docNeigh[2], .shortSep 's', cs!"/data/in.pkl"⟩, ⟨docNeigh[3], .shortSep 'n', cs!"1"⟩] : List Given), g.Valid docNeigh := by
    intro g hg
    simp only [List.mem_cons, List.not_mem_nil, or_false] at hg
    rcases hg with rfl | rfl | rfl | rfl <;> simp [Given.Valid, docNeigh]
  obtain ⟨st, h1, hm, h2⟩ := C70_short_partial demo.parseCfg demoFs [] _ (by simp) hg cs!"cos" [] (by intro a ha; cases ha)
    (fun _ => none) rfl
  have hi : st cs!"in_file" = .str cs!"/data/words.txt" := h2 docNeigh[0] (by simp [docNeigh])
  have ho : st cs!"out_dir" = .str cs!"/out/x" := h2 docNeigh[1] (by simp [docNeigh])
  have hs : st cs!"spaces" = .list [cs!"/data/in.pkl"] := h2 docNeigh[2] (by simp [docNeigh])
  have hl : st cs!"log_file" = .none := h2 docNeigh[4] (by simp [docNeigh])
  refine C92_main_neighbours demoFs_ok h1 (by rw [hi]; rfl) words_base (by rw [ho]; rfl) (by rw [hm]; rfl) (by rw [hs]; rfl) in_name
    (fun f hf => apart_out (out_or_log (fun _ => neigh_out) (by rw [hl]; intro f hf; cases hf)) ?_)
  have := hf.resolve_right (by
    rintro ⟨o, h⟩
    have h3 := getopt_givens neighOpts_ok (getopt_positional (short := cliNeigh.short) (longs := cliNeigh.longs) (tail := [])
      (by intro a ha; cases ha)) hg
    have h4 := getopt_m cs!"cos" [cs!"-i", cs!"/data/words.txt", cs!"-o", cs!"/out/x", cs!"-s", cs!"/data/in.pkl", cs!"-n", cs!"1"]
    have h6 := h.symm.trans (h4.trans (congrArg (fun r => r.bind (fun r => some ((cs!"-m", cs!"cos") :: r.1, r.2))) h3))
    simp at h6)
  clear hf
  revert f
  decide

/-- `--sim_measures` as the code of `compute_similarities.py` has it. -/
def simsOpts : List DocOpt := docSims ++ [⟨cs!"sim_measures", some 'm', cs!"sim_measures", true, .none⟩]

theorem simsOpts_ok : cliSims.ok simsOpts = true := by decide

theorem sims_parses {gs : List Given} (hg : ∀ g ∈ gs, g.Valid simsOpts) :
    (∃ st, cliSims.parseArgs demo.parseCfg demoFs (gs.map Given.render).flatten = .ok st ∧
      ∀ o ∈ simsOpts, st o.var = wanted gs (fun _ => none) o) ∧
    ∀ f, ¬ NamesConfig cliSims (gs.map Given.render).flatten f := by
  constructor
  · obtain ⟨st, h1, h2⟩ := parse_values simsOpts_ok demo.parseCfg demoFs gs hg [] (by intro a ha; cases ha) (fun _ => none) rfl
    rw [List.append_nil] at h1
    exact ⟨st, h1, h2⟩
  · rintro f ⟨o, h⟩
    have := getopt_givens simsOpts_ok (getopt_positional (short := cliSims.short) (longs := cliSims.longs) (tail := [])
      (by intro a ha; cases ha)) hg
    rw [List.append_nil, h] at this
    simp at this

/-- `compute_similarities.py -i /data/pairs.txt -o /out/x -c 2,3 -m lin,foo -s /data/in.pkl`. -/
example : Restartable (fun h => mainSimsR demo h [cs!"-i", cs!"/data/pairs.txt", cs!"-o", cs!"/out/x", cs!"-c", cs!"2,3",
    cs!"-m", cs!"lin,foo", cs!"-s", cs!"/data/in.pkl"]) demoFs := by
  have hg : ∀ g ∈ ([⟨simsOpts[0], .shortSep 'i', cs!"/data/pairs.txt"⟩, ⟨simsOpts[1], .shortSep 'o', cs!"/out/x"⟩,
      ⟨simsOpts[4], .shortSep 'c', cs!"2,3"⟩, ⟨simsOpts[6], .shortSep 'm', cs!"lin,foo"⟩,
      ⟨simsOpts[2], .shortSep 's', cs!"/data/in.pkl"⟩] : List Given), g.Valid simsOpts := by
    intro g hg
    simp only [List.mem_cons, List.not_mem_nil, or_false] at hg
    rcases hg with rfl | rfl | rfl | rfl | rfl <;> simp [Given.Valid, simsOpts, docSims]
  obtain ⟨⟨st, h1, h2⟩, hc⟩ := sims_parses hg
  have hi : st cs!"in_file" = .str cs!"/data/pairs.txt" := h2 simsOpts[0] (by simp [simsOpts, docSims])
  have ho : st cs!"out_dir" = .str cs!"/out/x" := h2 simsOpts[1] (by simp [simsOpts, docSims])
  have hs : st cs!"spaces" = .list [cs!"/data/in.pkl"] := h2 simsOpts[2] (by simp [simsOpts, docSims])
  have hd : st cs!"in_dir" = .none := h2 simsOpts[3] (by simp [simsOpts, docSims])
  have hm : st cs!"sim_measures" = .list [cs!"lin", cs!"foo"] := h2 simsOpts[6] (by simp [simsOpts, docSims])
  have hl : st cs!"log_file" = .none := h2 simsOpts[5] (by simp [simsOpts, docSims])
  refine C92_main_similarities demoFs_ok h1 (by rw [hi]; rfl) pairs_base (by rw [ho]; rfl) (by rw [hm]; rfl) (by rw [hd]; rfl)
    (by rw [hs]; rfl) in_name
    (fun f hf => apart_out (out_or_log (fun _ => sims_out) (by rw [hl]; intro f hf; cases hf)) ?_)
  have := hf.resolve_right (hc f)
  clear hf
  revert f
  decide

/-- The same for all spaces of a directory. -/
example : Restartable (fun h => mainSimsR demo h [cs!"-i", cs!"/data/pairs.txt", cs!"-o", cs!"/out/x", cs!"-c", cs!"2,3",
    cs!"-m", cs!"lin,foo", cs!"--in_dir", cs!"/cores"]) demoFs := by
  have hg : ∀ g ∈ ([⟨simsOpts[0], .shortSep 'i', cs!"/data/pairs.txt"⟩, ⟨simsOpts[1], .shortSep 'o', cs!"/out/x"⟩,
      ⟨simsOpts[4], .shortSep 'c', cs!"2,3"⟩, ⟨simsOpts[6], .shortSep 'm', cs!"lin,foo"⟩,
      ⟨simsOpts[3], .longSep, cs!"/cores"⟩] : List Given), g.Valid simsOpts := by
    intro g hg
    simp only [List.mem_cons, List.not_mem_nil, or_false] at hg
    rcases hg with rfl | rfl | rfl | rfl | rfl <;> simp [Given.Valid, simsOpts, docSims]
  obtain ⟨⟨st, h1, h2⟩, hc⟩ := sims_parses hg
  have hi : st cs!"in_file" = .str cs!"/data/pairs.txt" := h2 simsOpts[0] (by simp [simsOpts, docSims])
  have ho : st cs!"out_dir" = .str cs!"/out/x" := h2 simsOpts[1] (by simp [simsOpts, docSims])
  have hd : st cs!"in_dir" = .str cs!"/cores" := h2 simsOpts[3] (by simp [simsOpts, docSims])
  have hm : st cs!"sim_measures" = .list [cs!"lin", cs!"foo"] := h2 simsOpts[6] (by simp [simsOpts, docSims])
  have hl : st cs!"log_file" = .none := h2 simsOpts[5] (by simp [simsOpts, docSims])
  refine C92_main_similarities_batch (measures := [cs!"lin", cs!"foo"]) demoFs_ok h1 (by rw [hi]; rfl) pairs_base (by rw [ho]; rfl) (by rw [hm]; rfl) (by rw [hd]; rfl)
    (fun f hf => apart_out (out_or_log (fun _ ⟨_, h⟩ => sims_out h) (by rw [hl]; intro f hf; cases hf)) ?_)
  have := hf.resolve_right (hc f)
  clear hf
  revert f
  decide

end Examples
end
end Dissect
