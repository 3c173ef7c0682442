"""Writes certificates for the pairs of weights and averaged weights in sd1-ldm (lean/Verif/Data/CertEma.lean), checked by the kernel.

Usage, in /verif/lean: python3 ../tools/gen_ema.py /repo/sd_mecha/extensions/builtin/model_configs
"""
import pathlib
import sys

sys.path.insert(0, str(pathlib.Path(__file__).parent))
from gen_certs import chunks_of
from gen_tables import CHUNK, read


def main(configs):
    components = dict(read(configs / "sd1-ldm.yaml")[1])
    tc = chunks_of([("diffuser", components["diffuser"])])
    sc = chunks_of([("ema", components["ema"])])
    sc[0] = (sc[0][0], sc[0][1][2:])
    position = {e[0]: (i, j) for i, (_, es) in enumerate(sc) for j, e in enumerate(es)}
    name = lambda n, c: f"(rest Sd1Ldm.{c})" if n == 0 else f"Sd1Ldm.{c}"
    lines = ["import Verif.Data.Sd1Ldm", "import Verif.Proofs.EmaFast", "", "/-!", "# Certificates for the averaged weights of `sd1-ldm`", "",
             "Generated by tools/gen_ema.py, checked by the kernel.", "-/", "namespace Verif.Data.CertEma", "open Fast", "",
             "/-- The averaged weights -/",
             "noncomputable def source : List (List Entry) := [" + ", ".join(name(n, c) for n, (c, _) in enumerate(sc)) + "]",
             "/-- The weights -/",
             "noncomputable def target : List (List Entry) := [" + ", ".join(f"Sd1Ldm.{c}" for c, _ in tc) + "]", ""]
    total = 0
    for n, (c, es) in enumerate(tc):
        ps = [position["model_ema." + e[0][len("model."):].replace(".", "")] for e in es]
        m = sum(1 << (128 * a + b) for a, b in ps)
        before, total = total, total | m
        lines += [f"noncomputable def cert{n} : List Cert := [" + ", ".join(f".read {a} {b}" for a, b in ps) + "]",
                  f"theorem check{n} : checkAll source emaConv emaSpec never Sd1Ldm.{c} cert{n} = true := by kernel_rfl",
                  f"theorem fresh{n} : fresh cert{n} {before} {total} = true := by kernel_rfl",
                  f"theorem below{n} : cert{n}.all (fun c => (positions c).all fun p => decide (p.2 < 128)) = true := by kernel_rfl", ""]
    k = len(tc)
    lines += ["/-- All certificates -/", "noncomputable def certs : List (List Cert) := [" + ", ".join(f"cert{n}" for n in range(k)) + "]", "",
              "theorem allGood : AllGood source emaConv emaSpec never target certs :=",
              "  " + " <| ".join(f".cons check{n}" for n in range(k)) + " .nil", "",
              f"theorem allFresh : Fresh certs 0 {total} :=", "  " + " <| ".join(f".cons fresh{n}" for n in range(k)) + " (.nil _)", "",
              *[f"theorem increasing{n} : increasing (key% \"{es[-1][0]}\") {name(n, c)} (key% \"{sc[n - 1][1][-1][0] if n else ''}\") = true := by kernel_rfl"
                for n, (c, es) in enumerate(sc)],
              "theorem nodup : (source.flatten.map (·.key)).Nodup :=",
              "  Increasing.nodup (" + " <| ".join(f".cons increasing{n}" for n in range(len(sc))) + " (.nil _))", "",
              f"theorem covers : covered never {total} source 0 = true := by kernel_rfl", "",
              "theorem below : ∀ c ∈ certs.flatten, ∀ p ∈ positions c, p.2 < 128 := by",
              "  intro c hc p hp",
              "  simp only [certs, List.flatten_cons, List.flatten_nil, List.mem_append, List.not_mem_nil, or_false] at hc",
              "  rcases hc with " + " | ".join(["hc"] * k)]
    lines += [f"  · exact of_decide_eq_true (List.all_eq_true.1 (List.all_eq_true.1 below{n} c hc) p hp)" for n in range(k)]
    lines += ["", "end Verif.Data.CertEma", ""]
    pathlib.Path("Verif/Data/CertEma.lean").write_text("\n".join(lines))


if __name__ == "__main__":
    main(pathlib.Path(sys.argv[1]))
