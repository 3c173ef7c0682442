"""Writes the key tables of the shipped model configs as Lean modules (lean/Verif/Data).

Usage: python3 tools/gen_tables.py /repo/sd_mecha/extensions/builtin/model_configs lean/Verif/Data
"""
import pathlib
import re
import sys

CHUNK = 100
LINE = re.compile(r"    (\S+): \{shape: \[([0-9, ]*)\], dtype: (\w+)(?:, aliases: \[([^\]]*)\])?(, optional: true)?\}")


def name_of(stem):
    return "".join(p[0].upper() + p[1:] for p in re.split(r"[-_]", stem))


def read(path):
    identifier, components = None, []
    for line in path.read_text().splitlines():
        if m := LINE.fullmatch(line):
            aliases = [a.strip() for a in m[4].split(",")] if m[4] else []
            components[-1][1].append((m[1], m[2], m[3], aliases, bool(m[5])))
        elif m := re.fullmatch(r"identifier: (\S+)", line):
            identifier = m[1]
        elif m := re.fullmatch(r"  (\S+):", line):
            components.append((m[1], []))
        elif line != "components:":
            raise ValueError(line)
    return identifier, components


def entry(key, shape, dtype, aliases, optional):
    aliases = ", ".join(f'key% "{a}"' for a in aliases)
    return f'  ⟨key% "{key}", [{shape}], .{dtype}, [{aliases}], {"true" if optional else "false"}⟩'


def write(path, out):
    identifier, components = read(path)
    name = name_of(path.stem)
    lines = ["import Verif.Data.Entry", "", "/-!", f"# Keys of `{path.name}`", "",
             f"Generated by tools/gen_tables.py from sd_mecha/extensions/builtin/model_configs/{path.name}.", "-/",
             f"namespace Verif.Data.{name}", "", ""]
    for component, entries in components:
        chunks = [entries[i:i + CHUNK] for i in range(0, len(entries), CHUNK)]
        for i, chunk in enumerate(chunks):
            lines.append(f"noncomputable def {component}{i} : List Entry := [")
            lines.append(",\n".join(entry(*e) for e in chunk) + "]")
        lines.append(f"/-- Component `{component}`: {len(entries)} keys -/")
        lines.append(f"noncomputable def {component} : List Entry := " + " ++ ".join(f"{component}{i}" for i in range(len(chunks))))
        lines.append("")
    lines.append(f"/-- The config as written in the file: its identifier and its components -/")
    lines.append(f'noncomputable def table : Table := ⟨key% "{identifier}", [' + ", ".join(f'(key% "{c}", {c})' for c, _ in components) + "]⟩")
    lines += ["", f"end Verif.Data.{name}", ""]
    (out / f"{name}.lean").write_text("\n".join(lines))


if __name__ == "__main__":
    for path in sorted(pathlib.Path(sys.argv[1]).glob("*.yaml")):
        write(path, pathlib.Path(sys.argv[2]))
