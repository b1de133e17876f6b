/-
The sample outputs printed in the repository's README.md, and the one page shown in
docs/images/edtf-parse-wasm.png, on the model.  They come from runs of the real program, so they
check the model from outside.  Generated by tools/genreadme.py.  These are tests on literals;
no property rests on them.
-/
import Verif.Page
import Verif.Cmd
namespace EDTF.Tests

/-- What `| jq` prints: the same layout as `JSON.stringify` with two spaces. -/
def jq (s : Str) : Option Str := (readJson s).map (fun v => v.stringify [])

/-! README.md:229-231 -/
example : cmdMatches [c! "193X", c! "2021-10-10T00:24:00Z"] =
    ⟨c! "193X level 1 (Unspecified digit(s) from the right)\n" ++
    c! "2021-10-10T00:24:00Z level 0 (Date and Time)" ++ c! "\n", 0⟩ := by decide +kernel

/-! README.md:248-357 -/
example : jq (cmdParse [c! "2004-06-XX/2004-07-03", c! "{1667,1668,1670..1672}"]).stdout = some (
    c! "[\n" ++
    c! "  {\n" ++
    c! "    \"start\": {\n" ++
    c! "      \"edtf\": \"2004-06-XX\",\n" ++
    c! "      \"lower\": {\n" ++
    c! "        \"datetime\": \"2004-06-01T00:00:00Z\",\n" ++
    c! "        \"timestamp\": 1086048000,\n" ++
    c! "        \"ymd\": {\n" ++
    c! "          \"year\": 2004,\n" ++
    c! "          \"month\": 6,\n" ++
    c! "          \"day\": 1\n" ++
    c! "        },\n" ++
    c! "        \"precision\": 32\n" ++
    c! "      },\n" ++
    c! "      \"upper\": {\n" ++
    c! "        \"datetime\": \"2004-06-30T23:59:59Z\",\n" ++
    c! "        \"timestamp\": 1088639999,\n" ++
    c! "        \"ymd\": {\n" ++
    c! "          \"year\": 2004,\n" ++
    c! "          \"month\": 6,\n" ++
    c! "          \"day\": 30\n" ++
    c! "        },\n" ++
    c! "        \"precision\": 32\n" ++
    c! "      }\n" ++
    c! "    },\n" ++
    c! "    \"end\": {\n" ++
    c! "      \"edtf\": \"2004-07-03\",\n" ++
    c! "      \"lower\": {\n" ++
    c! "        \"datetime\": \"2004-07-03T00:00:00Z\",\n" ++
    c! "        \"timestamp\": 1088812800,\n" ++
    c! "        \"ymd\": {\n" ++
    c! "          \"year\": 2004,\n" ++
    c! "          \"month\": 7,\n" ++
    c! "          \"day\": 3\n" ++
    c! "        },\n" ++
    c! "        \"precision\": 64\n" ++
    c! "      },\n" ++
    c! "      \"upper\": {\n" ++
    c! "        \"datetime\": \"2004-07-03T23:59:59Z\",\n" ++
    c! "        \"timestamp\": 1088899199,\n" ++
    c! "        \"ymd\": {\n" ++
    c! "          \"year\": 2004,\n" ++
    c! "          \"month\": 7,\n" ++
    c! "          \"day\": 3\n" ++
    c! "        },\n" ++
    c! "        \"precision\": 64\n" ++
    c! "      }\n" ++
    c! "    },\n" ++
    c! "    \"edtf\": \"2004-06-XX/2004-07-03\",\n" ++
    c! "    \"level\": 2,\n" ++
    c! "    \"feature\": \"Interval\"\n" ++
    c! "  },\n" ++
    c! "  {\n" ++
    c! "    \"start\": {\n" ++
    c! "      \"edtf\": \"1667\",\n" ++
    c! "      \"lower\": {\n" ++
    c! "        \"datetime\": \"1667-01-01T00:00:00Z\",\n" ++
    c! "        \"timestamp\": -9561715200,\n" ++
    c! "        \"ymd\": {\n" ++
    c! "          \"year\": 1667,\n" ++
    c! "          \"month\": 1,\n" ++
    c! "          \"day\": 1\n" ++
    c! "        },\n" ++
    c! "        \"precision\": 64,\n" ++
    c! "        \"inclusivity\": 2\n" ++
    c! "      },\n" ++
    c! "      \"upper\": {\n" ++
    c! "        \"datetime\": \"1667-12-31T23:59:59Z\",\n" ++
    c! "        \"timestamp\": -9530179201,\n" ++
    c! "        \"ymd\": {\n" ++
    c! "          \"year\": 1667,\n" ++
    c! "          \"month\": 12,\n" ++
    c! "          \"day\": 31\n" ++
    c! "        },\n" ++
    c! "        \"precision\": 64,\n" ++
    c! "        \"inclusivity\": 2\n" ++
    c! "      }\n" ++
    c! "    },\n" ++
    c! "    \"end\": {\n" ++
    c! "      \"edtf\": \"1672\",\n" ++
    c! "      \"lower\": {\n" ++
    c! "        \"datetime\": \"1672-01-01T00:00:00Z\",\n" ++
    c! "        \"timestamp\": -9403948800,\n" ++
    c! "        \"ymd\": {\n" ++
    c! "          \"year\": 1672,\n" ++
    c! "          \"month\": 1,\n" ++
    c! "          \"day\": 1\n" ++
    c! "        },\n" ++
    c! "        \"precision\": 64,\n" ++
    c! "        \"inclusivity\": 2\n" ++
    c! "      },\n" ++
    c! "      \"upper\": {\n" ++
    c! "        \"datetime\": \"1672-12-31T23:59:59Z\",\n" ++
    c! "        \"timestamp\": -9372326401,\n" ++
    c! "        \"ymd\": {\n" ++
    c! "          \"year\": 1672,\n" ++
    c! "          \"month\": 12,\n" ++
    c! "          \"day\": 31\n" ++
    c! "        },\n" ++
    c! "        \"precision\": 64,\n" ++
    c! "        \"inclusivity\": 2\n" ++
    c! "      }\n" ++
    c! "    },\n" ++
    c! "    \"edtf\": \"{1667,1668,1670..1672}\",\n" ++
    c! "    \"level\": 2,\n" ++
    c! "    \"feature\": \"Set representation\"\n" ++
    c! "  }\n" ++
    c! "]") := by decide +kernel

/-! README.md:395-446 -/
example : jq (cmdWasi [c! "2025-04-02"]).stdout = some (
    c! "{\n" ++
    c! "  \"start\": {\n" ++
    c! "    \"edtf\": \"2025-04-02\",\n" ++
    c! "    \"lower\": {\n" ++
    c! "      \"datetime\": \"2025-04-02T00:00:00Z\",\n" ++
    c! "      \"timestamp\": 1743552000,\n" ++
    c! "      \"ymd\": {\n" ++
    c! "        \"year\": 2025,\n" ++
    c! "        \"month\": 4,\n" ++
    c! "        \"day\": 2\n" ++
    c! "      },\n" ++
    c! "      \"precision\": 64\n" ++
    c! "    },\n" ++
    c! "    \"upper\": {\n" ++
    c! "      \"datetime\": \"2025-04-02T00:00:00Z\",\n" ++
    c! "      \"timestamp\": 1743552000,\n" ++
    c! "      \"ymd\": {\n" ++
    c! "        \"year\": 2025,\n" ++
    c! "        \"month\": 4,\n" ++
    c! "        \"day\": 2\n" ++
    c! "      },\n" ++
    c! "      \"precision\": 64\n" ++
    c! "    }\n" ++
    c! "  },\n" ++
    c! "  \"end\": {\n" ++
    c! "    \"edtf\": \"2025-04-02\",\n" ++
    c! "    \"lower\": {\n" ++
    c! "      \"datetime\": \"2025-04-02T23:59:59Z\",\n" ++
    c! "      \"timestamp\": 1743638399,\n" ++
    c! "      \"ymd\": {\n" ++
    c! "        \"year\": 2025,\n" ++
    c! "        \"month\": 4,\n" ++
    c! "        \"day\": 2\n" ++
    c! "      },\n" ++
    c! "      \"precision\": 64\n" ++
    c! "    },\n" ++
    c! "    \"upper\": {\n" ++
    c! "      \"datetime\": \"2025-04-02T23:59:59Z\",\n" ++
    c! "      \"timestamp\": 1743638399,\n" ++
    c! "      \"ymd\": {\n" ++
    c! "        \"year\": 2025,\n" ++
    c! "        \"month\": 4,\n" ++
    c! "        \"day\": 2\n" ++
    c! "      },\n" ++
    c! "      \"precision\": 64\n" ++
    c! "    }\n" ++
    c! "  },\n" ++
    c! "  \"edtf\": \"2025-04-02\",\n" ++
    c! "  \"level\": 0,\n" ++
    c! "  \"feature\": \"Date\"\n" ++
    c! "}") := by decide +kernel

/-! README.md:463-494 -/
example : jq (cmdWasi [c! "2025-04-02T12:30:23"]).stdout = some (
    c! "{\n" ++
    c! "  \"start\": {\n" ++
    c! "    \"edtf\": \"\",\n" ++
    c! "    \"lower\": {\n" ++
    c! "      \"datetime\": \"2025-04-02T12:30:23Z\",\n" ++
    c! "      \"timestamp\": 1743597023,\n" ++
    c! "      \"ymd\": null\n" ++
    c! "    },\n" ++
    c! "    \"upper\": {\n" ++
    c! "      \"datetime\": \"2025-04-02T12:30:23Z\",\n" ++
    c! "      \"timestamp\": 1743597023,\n" ++
    c! "      \"ymd\": null\n" ++
    c! "    }\n" ++
    c! "  },\n" ++
    c! "  \"end\": {\n" ++
    c! "    \"edtf\": \"\",\n" ++
    c! "    \"lower\": {\n" ++
    c! "      \"datetime\": \"2025-04-02T12:30:23Z\",\n" ++
    c! "      \"timestamp\": 1743597023,\n" ++
    c! "      \"ymd\": null\n" ++
    c! "    },\n" ++
    c! "    \"upper\": {\n" ++
    c! "      \"datetime\": \"2025-04-02T12:30:23Z\",\n" ++
    c! "      \"timestamp\": 1743597023,\n" ++
    c! "      \"ymd\": null\n" ++
    c! "    }\n" ++
    c! "  },\n" ++
    c! "  \"edtf\": \"2025-04-02T12:30:23\",\n" ++
    c! "  \"level\": 0,\n" ++
    c! "  \"feature\": \"Date and Time\"\n" ++
    c! "}") := by decide +kernel

/-! docs/images/edtf-parse-wasm.png -/
example : showPage (c! "2026-01-02T12:45:23") = .pre (
    c! "{\n" ++
    c! "  \"start\": {\n" ++
    c! "    \"edtf\": \"\",\n" ++
    c! "    \"lower\": {\n" ++
    c! "      \"datetime\": \"2026-01-02T12:45:23Z\",\n" ++
    c! "      \"timestamp\": 1767357923,\n" ++
    c! "      \"ymd\": null\n" ++
    c! "    },\n" ++
    c! "    \"upper\": {\n" ++
    c! "      \"datetime\": \"2026-01-02T12:45:23Z\",\n" ++
    c! "      \"timestamp\": 1767357923,\n" ++
    c! "      \"ymd\": null\n" ++
    c! "    }\n" ++
    c! "  },\n" ++
    c! "  \"end\": {\n" ++
    c! "    \"edtf\": \"\",\n" ++
    c! "    \"lower\": {\n" ++
    c! "      \"datetime\": \"2026-01-02T12:45:23Z\",\n" ++
    c! "      \"timestamp\": 1767357923,\n" ++
    c! "      \"ymd\": null\n" ++
    c! "    },\n" ++
    c! "    \"upper\": {\n" ++
    c! "      \"datetime\": \"2026-01-02T12:45:23Z\",\n" ++
    c! "      \"timestamp\": 1767357923,\n" ++
    c! "      \"ymd\": null\n" ++
    c! "    }\n" ++
    c! "  },\n" ++
    c! "  \"edtf\": \"2026-01-02T12:45:23\",\n" ++
    c! "  \"level\": 0,\n" ++
    c! "  \"feature\": \"Date and Time\"\n" ++
    c! "}") := by decide +kernel

end EDTF.Tests
