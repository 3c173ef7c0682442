"""Writes lean/Verif/Data/Chunks.lean: the parts of each key table as one list.

Usage: python3 tools/gen_chunks.py /repo/sd_mecha/extensions/builtin/model_configs lean/Verif/Data
"""
import pathlib
import sys

from gen_tables import CHUNK, name_of, read

paths = sorted(pathlib.Path(sys.argv[1]).glob("*.yaml"))
names = [name_of(p.stem) for p in paths]
lines = [f"import Verif.Data.{n}" for n in names]
lines += ["", "/-! # The parts of the key tables", "", "Generated by tools/gen_chunks.py. -/", "namespace Verif.Data", ""]
for path, name in zip(paths, names):
    _, components = read(path)
    chunks = [f"{name}.{c}{i}" for c, entries in components for i in range((len(entries) + CHUNK - 1) // CHUNK)]
    lines.append(f"noncomputable def {name}.chunks : List (List Entry) := [" + ", ".join(chunks) + "]")
    lines.append("")
    lines.append(f"theorem {name}.entries_eq : {name}.table.entries = {name}.chunks.flatten := by")
    lines.append(f"  simp [Table.entries, {name}.table, {name}.chunks, " + ", ".join(f"{name}.{c}" for c, _ in components) + "]")
    lines.append("")
lines += ["end Verif.Data", ""]
(pathlib.Path(sys.argv[2]) / "Chunks.lean").write_text("\n".join(lines))
