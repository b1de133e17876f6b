/-! cmp/*_test.go -/
example : isAfter (c! "2021-09-10") (c! "2020-10-16") = .ok true := by decide +kernel
example : isAfter (c! "203X") (c! "2020-10-16") = .ok true := by decide +kernel
example : isBefore (c! "2017-09-10") (c! "2020-10-16") = .ok true := by decide +kernel
example : isBefore (c! "201X") (c! "2020-10-16") = .ok true := by decide +kernel
example : isBefore (c! "2020-09-XX") (c! "2020-10-16") = .ok true := by decide +kernel
/-! unix/range_test.go -/
example : Unix.deriveRanges (c! "2021-05-25") =
    .ok (some ⟨⟨1621900800, 1621987199⟩, ⟨1621900800, 1621987199⟩⟩) := by decide +kernel
example : Unix.deriveRanges (c! "2021-11-09") =
    .ok (some ⟨⟨1636416000, 1636502399⟩, ⟨1636416000, 1636502399⟩⟩) := by decide +kernel
example : Unix.deriveRanges (c! "..") = .ok none := by decide +kernel
example : Unix.deriveRanges [] = .ok none := by decide +kernel
/-! calendar/calendar_test.go -/
example : daysInMonthWithString (c! "2019-02") = .ok 28 := by decide +kernel
example : daysInMonthWithString (c! "2020-02") = .ok 29 := by decide +kernel
example : daysInMonthWithString (c! "1985-06") = .ok 30 := by decide +kernel
example : daysInMonthWithString (c! "1950-12") = .ok 31 := by decide +kernel
/-! common/*_test.go -/
example : ymdFromString (c! "2020-02") = .ok ⟨2020, 2, 29⟩ := by decide +kernel
example : ymdFromString (c! "1972-06") = .ok ⟨1972, 6, 30⟩ := by decide +kernel
example : ymdFromString (c! "1972") = .ok ⟨1972, 1, 31⟩ := by decide +kernel
example : ymdFromString (c! "-200-05-30") = .ok ⟨-200, 5, 30⟩ := by decide +kernel
example : flipYear (-1900) = 1900 := by decide +kernel
example : timeYear (timeToBCE 0) = -1970 := by decide +kernel
/-! edtf_test.go -/
example : isOpenStr OPEN ∧ isOpenStr OPEN_2012 ∧ ¬ isOpenStr [] ∧ ¬ isOpenStr (c! "2021-09-28") := by decide
example : isUnspecifiedStr UNSPECIFIED ∧ isUnspecifiedStr UNSPECIFIED_2012 ∧ ¬ isUnspecifiedStr (c! "2021-09-28") := by
  decide
example : isUnknownStr UNKNOWN ∧ isUnknownStr UNKNOWN_2012 ∧ ¬ isUnknownStr (c! "2021-09-28") := by decide
example : formatRFC3339 (-124965504000) = c! "-1990-01-01T00:00:00Z" := by decide +kernel
example : formatRFC3339 (-49512816001) = c! "0400-12-31T23:59:59Z" := by decide +kernel
/-! deprecated_test.go -/
example : isDeprecated OPEN_2012 ∧ isDeprecated UNSPECIFIED_2012 ∧ ¬ isDeprecated OPEN ∧ ¬ isDeprecated UNSPECIFIED := by
  decide
/-! cmp/between_test.go -/
example : isBetween (c! "2024-03-21") (c! "2022-12") (c! "2024-06-17") = .ok true := by decide +kernel
example : isBetween (c! "2024-03-21") (c! "2024~") (c! "2024-06-17") = .ok true := by decide +kernel
example : isBetween (c! "2024-03-21") (c! "2024~") (c! "2024~") = .ok true := by decide +kernel
example : isBetween (c! "2024-03-21") (c! "2024~") OPEN = .ok true := by decide +kernel
example : isBetween (c! "2024-06-18") (c! "2024-06-17") OPEN = .ok true := by decide +kernel
example : isBetween (c! "2021-03-21") (c! "2022-12") (c! "2024-06-17") = .ok false := by decide +kernel
example : isBetween (c! "2024-03-21") (c! "2024~") (c! "2024-02~") = .ok false := by decide +kernel
example : isBetween (c! "2021-03-21") (c! "1984-12") (c! "1996-12-08") = .ok false := by decide +kernel
