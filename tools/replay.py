"""Run the Lean model at Float on the drivers of the repository's regression tests and compare with the outputs
recorded there (outputs of the real program).  A test of the model, not a proof.  Run: python3 tools/replay.py"""
import csv, math, os, struct, subprocess, sys, collections
DATA = "/repo/tests/test-data"
CASES = [
 ("two-layer-output/test_twolayer_defaults.csv", "TLM", "TLM.defaultArgs U0.regF",
  ["Surface Temperature|Upper", "Surface Temperature|Lower", "Heat Uptake"]),
 ("two-layer-output/test_twolayer_plus_efficacy.csv", "TLM",
  "{ TLM.defaultArgs U0.regF with efficacy := .qty ⟨1.2, 0⟩ }",
  ["Surface Temperature|Upper", "Surface Temperature|Lower", "Heat Uptake"]),
 ("two-layer-output/test_twolayer_plus_state_dependence.csv", "TLM",
  "{ TLM.defaultArgs U0.regF with a := .qty ⟨0.05, U0.regF.wm2cc⟩ }",
  ["Surface Temperature|Upper", "Surface Temperature|Lower", "Heat Uptake"]),
 ("impulse-response-output/test_impulse_response_defaults.csv", "IRM", "IRM.defaultArgs U0.regF",
  ["Surface Temperature|Box 1", "Surface Temperature|Box 2", "Surface Temperature", "Heat Uptake"]),
]
bits = lambda s: struct.unpack("<Q", struct.pack("<d", float(s)))[0]
unbits = lambda n: struct.unpack("<d", struct.pack("<Q", n))[0]
ok = True
for path, cls, args, outs in CASES:
    rows = list(csv.reader(open(f"{DATA}/{path}")))
    head = rows[0]
    t0 = next(i for i, c in enumerate(head) if c[:4].isdigit())
    runs = collections.defaultdict(dict)
    for r in rows[1:]:
        d = dict(zip(head[:t0], r[:t0]))
        runs[d["run_idx"]][d["variable"]] = r[t0:]
    lines = []
    for k in sorted(runs, key=int):
        lines.append(" ".join(str(bits(x)) for x in runs[k]["Effective Radiative Forcing"] if x))
    open("/tmp/replay.txt", "w").write("\n".join(lines))
    open("/tmp/replay.lean", "w").write(f'''import Verif.Exec
open TwoLayer
def main : IO Unit := do
  match {cls}.init U0.regF ({args}) with
  | .error e => IO.println s!"error {{repr e}}"
  | .ok m =>
    for line in (← IO.FS.readFile "/tmp/replay.txt").splitOn "\\n" do
      let erf := (line.splitOn " ").map fun s => Float.ofBits (s.toNat!.toUInt64)
      match Exec.row ({cls}.variant U0.regF) m erf with
      | .error e => IO.println s!"error {{repr e}}"
      | .ok outs =>
        for o in outs do
          IO.println (" ".intercalate (o.map fun x => toString x.toBits))
''')
    p = subprocess.run(["lake", "env", "lean", "--run", "/tmp/replay.lean"], cwd="/verif/lean", capture_output=True, text=True)
    if p.returncode: print(p.stdout, p.stderr); sys.exit(1)
    got = p.stdout.split("\n")
    n = exact = 0; worst = 0.0; i = 0
    for k in sorted(runs, key=int):
        for v in outs:
            want = [float(x) if x else math.nan for x, e in zip(runs[k][v], runs[k]["Effective Radiative Forcing"]) if e]
            have = [unbits(int(x)) for x in got[i].split()]; i += 1
            assert len(want) == len(have), (len(want), len(have))
            for w, h in zip(want, have):
                n += 1
                if w == h or (math.isnan(w) and math.isnan(h)): exact += 1
                elif math.isnan(w) or math.isnan(h) or math.isinf(w) or math.isinf(h): worst = math.inf; print(w, h)
                else: worst = max(worst, abs(w - h) / max(abs(w), abs(h), 1e-300) if abs(w - h) > 1e-13 else 0)
    print(f"{path}: {n} values, {exact} bit-identical, worst relative difference of the others {worst:.2e}")
    ok &= worst < 1e-6
print("replay", "ok" if ok else "MISMATCH")
