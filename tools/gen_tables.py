"""Writes lean/Verif/Data/Tables*.lean from the JSON tables of /repo/paconvert.

Usage: python3 tools/gen_tables.py   (from /verif; the output is committed)

A text is written as the number whose base-256 digits are its (ASCII) characters. Entries are sorted by the number of
their key. The order of the entries of api_mapping.json, attribute_mapping.json and api_alias_mapping.json plays no role
in the code: they are only looked up. The wildcard table, whose order does play a role, is written by hand in
lean/Verif/Model/Tables.lean.
"""
import json
import os
import re

SRC = "/repo/paconvert/"
OUT = os.path.join(os.path.dirname(os.path.abspath(__file__)), "../lean/Verif/Data/")
CHUNK = 60


def code(s):
    assert all(0 < ord(c) < 128 for c in s), s
    n = 0
    for c in s:
        n = n * 256 + ord(c)
    return n


def lit(s):
    return hex(code(s)) if s else "0"


def lits(l):
    return "[" + ", ".join(lit(s) for s in l) + "]"


KNOWN = {
    "Matcher", "paddle_api", "min_input_args", "args_list", "overload_args_list", "unsupport_args",
    "kwargs_change", "paddle_default_kwargs", "convert_tensor", "abstract", "enable_utils_code",
}


def entry(k, e):
    assert set(e) <= KNOWN, (k, e)
    m = lit(e.get("Matcher", ""))
    if set(e) <= {"Matcher"}:
        return f"E {lit(k)} {m}"
    if set(e) <= {"Matcher", "paddle_api"}:
        return f"P {lit(k)} {m} {lit(e['paddle_api'])}"
    change = []
    for a, b in e.get("kwargs_change", {}).items():
        if isinstance(b, list):
            change.append(f"({lit(a)}, true, {lits(b)})")
        else:
            change.append(f"({lit(a)}, false, {lits([b])})")
    default = [f"({lit(a)}, {lit(str(b))})" for a, b in e.get("paddle_default_kwargs", {}).items()]
    return (
        f"F {lit(k)} {m} {lit(e.get('paddle_api', ''))} {e.get('min_input_args', 0)} {lits(e.get('args_list', []))} "
        f"{lits(e.get('overload_args_list', []))} {lits(e.get('unsupport_args', []))} [{', '.join(change)}] "
        f"[{', '.join(default)}]"
    )


def emit(f, name, table):
    ks = sorted(table, key=code)
    assert len(set(map(code, ks))) == len(ks)
    parts = []
    for i in range(0, len(ks), CHUNK):
        part = f"{name}{i // CHUNK}"
        parts.append(part)
        f.write(f"def {part} : List Raw := [\n")
        f.write(",\n".join(f"  {entry(k, table[k])} /- {k} -/" for k in ks[i : i + CHUNK]))
        f.write("]\n\n")
    f.write(f"def {name} : List Raw :=\n  " + " ++ (".join(parts) + ")" * (len(parts) - 1) + "\n\n")


HEAD = """/-!
# The tables shipped with PaConvert

Generated by `tools/gen_tables.py` from `/repo/paconvert/%s`. Do not edit.
-/

namespace Verif.Data

"""


def load(n):
    return json.load(open(SRC + n))


def main():
    with open(OUT + "Raw.lean", "w") as f:
        f.write(
            """/-!
# Shape of the table entries

See `tools/gen_tables.py` for the encoding.
-/

namespace Verif.Data

/-- An entry of `api_mapping.json` or `attribute_mapping.json`; texts as numbers, 0 for a missing or empty text. -/
structure Raw where
  key : Nat
  /-- `"Matcher"` -/
  matcher : Nat
  /-- `"paddle_api"` -/
  paddle : Nat
  /-- `"min_input_args"` -/
  minInput : Nat
  /-- `"args_list"` -/
  args : List Nat
  /-- `"overload_args_list"` -/
  overload : List Nat
  /-- `"unsupport_args"` -/
  unsupport : List Nat
  /-- `"kwargs_change"`; the flag tells whether the value is a list -/
  change : List (Nat × Bool × List Nat)
  /-- `"paddle_default_kwargs"`, values as they are printed -/
  defaults : List (Nat × Nat)

/-- An entry with a matcher only. -/
def E (key matcher : Nat) : Raw := ⟨key, matcher, 0, 0, [], [], [], [], []⟩
/-- An entry with a matcher and a Paddle API. -/
def P (key matcher paddle : Nat) : Raw := ⟨key, matcher, paddle, 0, [], [], [], [], []⟩
/-- A full entry. -/
def F (key matcher paddle minInput : Nat) (args overload unsupport : List Nat) (change : List (Nat × Bool × List Nat))
    (defaults : List (Nat × Nat)) : Raw := ⟨key, matcher, paddle, minInput, args, overload, unsupport, change, defaults⟩

end Verif.Data
"""
        )
    with open(OUT + "Api.lean", "w") as f:
        f.write("import Verif.Data.Raw\n\n" + HEAD % "api_mapping.json")
        emit(f, "apiTable", load("api_mapping.json"))
        f.write("end Verif.Data\n")
    with open(OUT + "Attr.lean", "w") as f:
        f.write("import Verif.Data.Raw\n\n" + HEAD % "attribute_mapping.json")
        emit(f, "attrTable", load("attribute_mapping.json"))
        f.write("end Verif.Data\n")
    with open(OUT + "Alias.lean", "w") as f:
        f.write(HEAD % "api_alias_mapping.json")
        t = load("api_alias_mapping.json")
        f.write("def aliasTable : List (Nat × Nat) := [\n")
        f.write(",\n".join(f"  ({lit(k)}, {lit(t[k])}) /- {k} -> {t[k]} -/" for k in sorted(t, key=code)))
        f.write("]\n\nend Verif.Data\n")
    with open(OUT + "Classes.lean", "w") as f:
        f.write(HEAD.replace("# The tables shipped with PaConvert", "# The matcher classes") % "api_matcher.py` and `base.py")
        names = re.findall(r"^class (\w+)", open(SRC + "api_matcher.py").read(), re.M) + ["BaseMatcher"]
        names = sorted(set(names), key=code)
        f.write("/-- The classes defined in api_matcher.py, and `BaseMatcher`, which it imports. -/\n")
        f.write("def matcherClasses : List Nat := [\n")
        f.write(",\n".join(f"  {lit(k)} /- {k} -/" for k in names))
        f.write("]\n\nend Verif.Data\n")


main()
