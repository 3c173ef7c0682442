"""Finds numbers M such that the names of a key table, and the names of its modules, are pairwise different modulo M.

Usage: python3 tools/find_moduli.py /repo/sd_mecha/extensions/builtin/model_configs
The numbers are used in lean/Verif/Proofs/TableNames.lean.
"""
import pathlib
import sys

from gen_tables import name_of, read


def code(s):
    n = 0
    for c in s:
        n = 128 * n + ord(c)
    return n


def module(key):
    parts = key.split(".")
    return "_".join(parts[:-1] if parts[-1] == "weight" else parts)


def modulus(codes):
    n = len(codes)
    m = max(n, n * n // 18) | 1
    while len({c % m for c in codes}) < n:
        m += 2
    return m


for path in sorted(pathlib.Path(sys.argv[1]).glob("*.yaml")):
    _, components = read(path)
    entries = [e for _, es in components for e in es]
    names = [code(n) for e in entries for n in [e[0], *e[3]]]
    modules = [code(module(e[0])) for e in entries if not e[0].endswith("bias") and "float" in e[2]]
    assert len(set(names)) == len(names) and len(set(modules)) == len(modules)
    print(name_of(path.stem), len(names), modulus(names), len(modules), modulus(modules), flush=True)
