# Checks of the model against the code

These scripts are tests of the model, not proofs; no theorem depends on them. They need the built Lean project, `/repo` as text, and
the standard library of Python. Nothing of `/repo` is imported or run: the literals in its unit tests are read with `ast`.

    mkdir -p /tmp/conformance
    for f in /verif/conformance/*.lean.txt; do cp $f /tmp/conformance/$(basename $f .txt); done
    python3 /verif/conformance/runtime_fuzz.py SEED N [chars]
    python3 /verif/conformance/navigation_11042.py
    python3 /verif/conformance/unit_tests.py

* `runtime_fuzz`: the model of the Python runtime (`lean/Verif/Py`, the regular expressions and the CSV reader) against CPython:
  random inputs for all regular expressions of the code, `csv.reader`, `json.loads`/`dumps`, `UUID`, `int`, `str.strip`, `str.lower`, `repr`,
  and expat. About 100 000 inputs; with `chars` also every code point below U+20000. Remaining differences are stated in DESIGN.md as
  limits of the model: lone surrogates in JSON, version numbers other than `1.x` in the XML declaration, U+FFFE and U+FFFF in XML names.
* `navigation_11042`: `determine_locations` and `determine_hierarchy_changes` for the 832 lines of the largest example in the unit tests
  of the project: no differences.
* `unit_tests`: 173 cases of the parametrised unit tests of the project, all equal. The six MAUS files in `tests/unit_tests/ahbs`, which
  no unit test reads, are listed as different: they are older than the schemas (for instance, groups with an empty expression are
  refused now). The CSV file 11042 gives 844 rows, and the 832 lines of the flat AHB are exactly the lines in `example_data_11042.py`.
