import Verif.Props.WriterFinal
/-! # The file that the repeated `Close` of `C53_retry_violated` writes -/
namespace Copc

/-- The bytes of the file. -/
def retriedData : Bytes :=
    [76, 65, 83, 70, 0, 0, 16] ++ (List.replicate 17 0 ++ ([1, 4] ++ (List.replicate 68 0 ++ ([119, 1, 243, 5, 0, 0,
    5, 0, 0, 0, 134, 31, 0, 8] ++ (List.replicate 29 0 ++ ([240, 63, 0, 0, 0, 0, 0, 0, 240, 63, 0, 0, 0, 0, 0, 0,
    240, 63] ++ (List.replicate 80 0 ++ ([229, 7, 0, 0, 0, 0, 0, 0, 6, 0, 0, 0, 8] ++ (List.replicate 129 0 ++ ([99,
    111, 112, 99] ++ (List.replicate 12 0 ++ ([1, 0, 160, 0, 67, 79, 80, 67, 32, 105, 110, 102, 111, 32, 86, 76, 82]
    ++ (List.replicate 59 0 ++ ([157, 8, 0, 0, 0, 0, 0, 0, 64] ++ (List.replicate 113 0 ++ ([99, 111, 112, 99] ++
    (List.replicate 12 0 ++ ([16, 39, 240, 0, 67, 79, 80, 67, 32, 101, 120, 116, 101, 110, 116, 115] ++
    (List.replicate 262 0 ++ ([114, 111, 99, 107, 95, 114, 111, 98, 111, 116, 105, 99, 0, 0, 0, 0, 17, 39, 240, 0,
    67, 79, 80, 67, 32, 101, 120, 116, 101, 110, 100, 101, 100, 32, 115, 116, 97, 116, 115] ++ (List.replicate 27 0
    ++ ([240, 63] ++ (List.replicate 14 0 ++ ([240, 63] ++ (List.replicate 14 0 ++ ([240, 63] ++ (List.replicate 14
    0 ++ ([240, 63] ++ (List.replicate 14 0 ++ ([240, 63] ++ (List.replicate 14 0 ++ ([240, 63] ++ (List.replicate
    14 0 ++ ([240, 63] ++ (List.replicate 14 0 ++ ([240, 63] ++ (List.replicate 14 0 ++ ([240, 63] ++
    (List.replicate 14 0 ++ ([240, 63] ++ (List.replicate 14 0 ++ ([240, 63] ++ (List.replicate 14 0 ++ ([240, 63]
    ++ (List.replicate 14 0 ++ ([240, 63] ++ (List.replicate 14 0 ++ ([240, 63] ++ (List.replicate 14 0 ++ ([240,
    63, 0, 0, 76, 65, 83, 70, 95, 83, 112, 101, 99, 0, 0, 0, 0, 0, 0, 0, 4, 0, 192] ++ (List.replicate 35 0 ++ ([1]
    ++ (List.replicate 191 0 ++ ([108, 97, 115, 122, 105, 112, 32, 101, 110, 99, 111, 100, 101, 100, 0, 0, 188, 86,
    46, 0, 108, 97, 122, 112, 101, 114, 102, 32, 118, 97, 114, 105, 97, 110, 116] ++ (List.replicate 17 0 ++
    ((List.replicate 12 1 ++ ([255, 255, 255, 255] ++ List.replicate 30 1)) ++ ([173, 7, 0, 0, 0, 0, 0, 0] ++ (List.replicate 62 7 ++ ([1, 2, 3, 4, 5, 0, 0, 0, 0, 3,
    0, 0, 0, 2, 0, 0, 0, 0, 0, 0, 0, 62, 0, 0, 0, 0, 0, 0, 0, 5, 0, 0, 0, 0, 0, 0, 0, 3, 0, 0, 0, 0, 0, 0, 0, 1, 0,
    0, 0, 0, 0, 0, 0, 2] ++ (List.replicate 9 0 ++ ([99, 111, 112, 99] ++ (List.replicate 12 0 ++ ([232, 3, 64, 0,
    0, 0, 0, 0, 0, 0, 40, 49, 44, 32, 49, 44, 32, 48, 44, 32, 49, 41] ++ (List.replicate 20 0 ++ ([1, 0, 0, 0, 1, 0,
    0, 0, 0, 0, 0, 0, 1, 0, 0, 0, 57, 6, 0, 0, 0, 0, 0, 0, 3, 0, 0, 0, 5, 0, 0, 0, 2, 0, 0, 0, 2, 0, 0, 0, 1, 0, 0,
    0, 3, 0, 0, 0, 60, 6, 0, 0, 0, 0, 0, 0, 2, 0, 0, 0, 1, 0, 0, 0, 0, 0, 99, 111, 112, 99] ++ (List.replicate 12 0
    ++ ([232, 3, 64, 0, 0, 0, 0, 0, 0, 0, 40, 48, 44, 32, 48, 44, 32, 48, 44, 32, 48, 41] ++ (List.replicate 36 0 ++
    ([251, 5, 0, 0, 0, 0, 0, 0, 62, 0, 0, 0, 2, 0, 0, 0, 1, 0, 0, 0, 1, 0, 0, 0, 0, 0, 0, 0, 1, 0, 0, 0, 178, 6, 0,
    0, 0, 0, 0, 0, 64, 0, 0, 0, 255, 255, 255, 255, 0, 0, 76, 65, 83, 70, 95, 80, 114, 111, 106, 101, 99, 116, 105,
    111, 110, 0, 64, 8, 3] ++ (List.replicate 39 0 ++ ([87, 75, 84, 0, 0, 0, 0, 3, 0, 0, 0, 2, 0, 0, 0, 0, 0, 0, 0,
    67, 250, 255, 255, 255, 255, 255, 255, 5, 0, 0, 0, 0, 0, 0, 0, 197, 255, 255, 255, 255, 255, 255, 255, 1, 0, 0,
    0, 0, 0, 0, 0] ++ (List.replicate 8 255 ++ ([0, 0, 99, 111, 112, 99] ++ (List.replicate 12 0 ++ ([232, 3, 64, 0,
    0, 0, 0, 0, 0, 0, 40, 49, 44, 32, 49, 44, 32, 48, 44, 32, 49, 41] ++ (List.replicate 20 0 ++ ([1, 0, 0, 0, 1, 0,
    0, 0, 0, 0, 0, 0, 1, 0, 0, 0, 57, 6, 0, 0, 0, 0, 0, 0, 3, 0, 0, 0, 5, 0, 0, 0, 2, 0, 0, 0, 2, 0, 0, 0, 1, 0, 0,
    0, 3, 0, 0, 0, 60, 6, 0, 0, 0, 0, 0, 0, 2, 0, 0, 0, 1, 0, 0, 0, 0, 0, 99, 111, 112, 99] ++ (List.replicate 12 0
    ++ ([232, 3, 64, 0, 0, 0, 0, 0, 0, 0, 40, 48, 44, 32, 48, 44, 32, 48, 44, 32, 48, 41] ++ (List.replicate 36 0 ++
    ([251, 5, 0, 0, 0, 0, 0, 0, 62, 0, 0, 0, 2, 0, 0, 0, 1, 0, 0, 0, 1, 0, 0, 0, 0, 0, 0, 0, 1, 0, 0, 0, 33, 8, 0,
    0, 0, 0, 0, 0, 64, 0, 0, 0, 255, 255, 255, 255, 0, 0, 76, 65, 83, 70, 95, 80, 114, 111, 106, 101, 99, 116, 105,
    111, 110, 0, 64, 8, 3] ++ (List.replicate 39 0 ++ ([87, 75,
    84])))))))))))))))))))))))))))))))))))))))))))))))))))))))))))))))))))))))))))))))))))

theorem retried_data : retried.2.base.out.data = retriedData := by decide +kernel

end Copc
