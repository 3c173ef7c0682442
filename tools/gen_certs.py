"""Writes certificates for the conversions between shipped configs (lean/Verif/Data/Cert*.lean), checked by the kernel.

Usage, in /verif/lean: python3 ../tools/gen_certs.py /repo/sd_mecha/extensions/builtin/model_configs
"""
import pathlib
import subprocess
import sys
import tempfile

sys.path.insert(0, str(pathlib.Path(__file__).parent))
from gen_tables import CHUNK, name_of, read

CONVERSIONS = [
    # module, conversion, checked function, specification, lost, unused, target, source
    ("Sd1", "sd1Kohya", "sd1", "sd1Spec", "sd1Lost", "sd1Unused", "sd1-ldm", "sd1-kohya"),
    ("Sdxl", "sdxlKohya", "sdxl", "Convert.Spec.sdxlKohya", "sdxlLost", "sdxlUnused", "sdxl-sgm", "sdxl-kohya"),
    ("Unet", "sdxlDiffusers", "sdxlDiffusers", "unetSpec", "unetLost", "unetUnused", "sdxl-sgm", "sdxl-diffusers_unet_only"),
    ("Sd1Blocks", "sd1Blocks", "sd1Blocks", "sd1BlocksSpec", "never", "never", "sd1-ldm", "sd1-supermerger_blocks"),
    ("SdxlBlocks", "sdxlBlocks", "sdxlBlocks", "sdxlBlocksSpec", "never", "never", "sdxl-sgm", "sdxl-supermerger_blocks"),
    ("Flux", "fluxToBackbone", "Convert.fluxToBackbone", "fluxSpec", "never", "fluxUnused", "flux-flux_diffuser_only", "flux-flux"),
]


def chunks_of(components):
    return [(f"{c}{i // CHUNK}", es[i:i + CHUNK]) for c, es in components for i in range(0, len(es), CHUNK)]


def tsv(chunks, path):
    with open(path, "w") as f:
        for i, (_, es) in enumerate(chunks):
            for j, e in enumerate(es):
                f.write(f"{e[0]}\t{i}\t{j}\t{len(e[1].split(',')) if e[1] else 0}\n")


def main(configs):
    tmp = pathlib.Path(tempfile.mkdtemp())
    for module, conversion, fast, spec, lost, unused, target, source in CONVERSIONS:
        t = read(configs / f"{target}.yaml")[1]
        s = read(configs / f"{source}.yaml")[1]
        tc, sc = chunks_of(t), chunks_of(s)
        tsv(tc, tmp / "t")
        tsv(sc, tmp / "s")
        out = subprocess.run(["lake", "env", "lean", "--run", str(pathlib.Path(__file__).parent / "certs.txt"), conversion, str(tmp / "t"), str(tmp / "s")],
                             capture_output=True, text=True, check=True).stdout.splitlines()
        tn, sn = name_of(target), name_of(source)
        lines = [f"import Verif.Data.{tn}", f"import Verif.Data.{sn}", "import Verif.Proofs.ConvertLost", "", "/-!",
                 f"# Certificates for the conversion from `{source}` to `{target}`", "", "Generated by tools/gen_certs.py, checked by the kernel.", "-/",
                 f"namespace Verif.Data.Cert{module}", "open Fast", "", "/-- The chunks of the source -/",
                 f"noncomputable def source : List (List Entry) := [" + ", ".join(f"{sn}.{c}" for c, _ in sc) + "]",
                 f"/-- The chunks of the target -/",
                 f"noncomputable def target : List (List Entry) := [" + ", ".join(f"{tn}.{c}" + (".map scalar" if module.endswith("Blocks") else "") for c, _ in tc) + "]", ""]
        scalar = module.endswith("Blocks")
        i, total, masks = 0, 0, []
        for n, (c, es) in enumerate(tc):
            certs = out[i:i + len(es)]
            i += len(es)
            m = 0
            for x in certs:
                ns = list(map(int, x.split()[1:]))
                for a, b in zip(ns[::2], ns[1::2]):
                    m |= 1 << (128 * a + b)
            before, total = total, total | m
            masks.append(m)
            lines += [f"noncomputable def cert{n} : List Cert := [" + ", ".join(certs) + "]",
                      f"theorem check{n} : checkAll source {fast} {spec} {lost} {'(' + tn + '.' + c + '.map scalar)' if scalar else tn + '.' + c} cert{n} = true := by kernel_rfl",
                      f"theorem mask{n} : mask cert{n} = {m} := by kernel_rfl" if scalar else
                      f"theorem fresh{n} : fresh cert{n} {before} {total} = true := by kernel_rfl",
                      f"theorem below{n} : cert{n}.all (fun c => (positions c).all fun p => decide (p.2 < 128)) = true := by kernel_rfl", ""]
        assert i == len(out)
        k = len(tc)
        lines += ["/-- All certificates -/", "noncomputable def certs : List (List Cert) := [" + ", ".join(f"cert{n}" for n in range(k)) + "]", "",
                  f"theorem allGood : AllGood source {fast} {spec} {lost} target certs :=",
                  "  " + " <| ".join(f".cons check{n}" for n in range(k)) + " .nil", "",
                  *([f"theorem masks : (certs.map mask).foldr Nat.lor 0 = {total} := by",
                     "  simp only [certs, List.map_cons, List.map_nil, List.foldr_cons, List.foldr_nil, " + ", ".join(f"mask{n}" for n in range(k)) + "]",
                     "  kernel_rfl", ""] if scalar else
                    [f"theorem allFresh : Fresh certs 0 {total} :=", "  " + " <| ".join(f".cons fresh{n}" for n in range(k)) + " (.nil _)", "",
                     *[f"theorem increasing{n} : increasing (key% \"{es[-1][0]}\") {sn}.{c} (key% \"{sc[n - 1][1][-1][0] if n else ''}\") = true := by kernel_rfl"
                       for n, (c, es) in enumerate(sc)],
                     "theorem nodup : (source.flatten.map (·.key)).Nodup :=",
                     "  Increasing.nodup (" + " <| ".join(f".cons increasing{n}" for n in range(len(sc))) + " (.nil _))", ""]),
                  f"theorem covers : covered {unused} {total} source 0 = true := by kernel_rfl", "",
                  "theorem below : ∀ c ∈ certs.flatten, ∀ p ∈ positions c, p.2 < 128 := by",
                  "  intro c hc p hp",
                  "  simp only [certs, List.flatten_cons, List.flatten_nil, List.mem_append, List.not_mem_nil, or_false] at hc",
                  "  rcases hc with " + " | ".join(["hc"] * k)]
        lines += [f"  · exact of_decide_eq_true (List.all_eq_true.1 (List.all_eq_true.1 below{n} c hc) p hp)" for n in range(k)]
        lines += ["",
                  f"theorem source_eq : source.flatten = {sn}.table.entries := by",
                  f"  simp [source, Table.entries, {sn}.table, " + ", ".join(f"{sn}.{c}" for c, _ in s) + "]", "",
                  f"theorem target_eq : target.flatten = {tn}.table.entries{'.map scalar' if scalar else ''} := by",
                  f"  simp [target, Table.entries, {tn}.table, " + ", ".join(f"{tn}.{c}" for c, _ in t) + "]", "",
                  f"end Verif.Data.Cert{module}", ""]
        pathlib.Path(f"Verif/Data/Cert{module}.lean").write_text("\n".join(lines))


if __name__ == "__main__":
    main(pathlib.Path(sys.argv[1]))
