{"id": "C01", "title": "MOS is always in [1,5] or NaN", "statement": "Whenever VisqolManager::run / compute_results returns Ok, the reported moslqo is either NaN or a number between 1.0 and 5.0 inclusive, for both variants and for any SVR model whatsoever.", "quantifier": "all signals, all search radii, both variants, every SVR model, every rounding behaviour of the floating-point operations", "why_tests_cant": "tests score a handful of file pairs; the claim is about every input and every possible (also malformed or untrained) SVR output", "anchors": ["visqol-rs/src/visqol.rs: calculate_similarity, alter_for_similarity_extremes", "visqol-rs/src/speech_similarity_to_quality_mapper.rs: predict_quality", "visqol-rs/src/svr_similarity_to_quality_mapper.rs: predict_quality"]}
{"id": "C02", "title": "Dissimilar signals score exactly 1.0", "statement": "Whenever a run returns Ok with vnsim below 0.15 the reported moslqo is exactly 1.0; otherwise it is exactly the mapper's prediction for the reported fvnsim.", "quantifier": "all inputs and both variants", "why_tests_cant": "needs every possible similarity vector, including NaN ones", "anchors": ["visqol-rs/src/visqol.rs: alter_for_similarity_extremes, predict_mos"]}
{"id": "C03", "title": "Wideband MOS is monotone in vnsim", "statement": "For two wideband results obtained with the same scaling option, the one with the larger vnsim never has the smaller moslqo (exact arithmetic); the scaled MOS is never below the unscaled MOS; and from a vnsim of 0.15 on the order of the MOS is the order of the vnsim, so that equal MOS means equal vnsim. In double precision the same holds up to 0.000006: whenever the band similarities are numbers of at most 2^18 in size, which C74 shows for every comparison of ordinary signals, a larger reported vnsim never comes with a MOS smaller by more than that.", "quantifier": "all pairs of similarity vectors of any lengths", "why_tests_cant": "a relation between all pairs of inputs", "anchors": ["visqol-rs/src/speech_similarity_to_quality_mapper.rs: predict_quality", "visqol-rs/src/math_utils.rs: exponential_from_fit", "visqol-rs/src/visqol.rs: alter_for_similarity_extremes"]}
{"id": "C04", "title": "Perfect similarity maps to the documented MOS", "statement": "An all-ones similarity vector of any length maps, in wideband mode, to a MOS in [4.999, 5.0] when scaling is enabled and to a MOS in [4.155, 4.156] ('4.x') when it is not. In double precision, a comparison that reports vnsim within 0.0001 of 1 (see C08) reports a MOS in [4.998, 5] when scaled and in [4.154, 4.159] when not.", "quantifier": "similarity vectors of every length", "why_tests_cant": "tests use one band count and one file", "anchors": ["visqol-rs/src/speech_similarity_to_quality_mapper.rs: predict_quality, new"]}
{"id": "C05", "title": "Result vectors have one entry per band", "statement": "Whenever a run returns Ok, fvnsim, fstdnsim, fvdegenergy and center_freq_bands all have exactly NUM_BANDS entries, patch_sims is non-empty and every patch's band vectors have NUM_BANDS entries. For the command line tool that is 21 bands in wideband and 32 in fullband mode.", "quantifier": "all inputs, every NUM_BANDS > 0, any arithmetic", "why_tests_cant": "shape must hold for every signal length, lag and patch selection", "anchors": ["visqol-rs/src/visqol.rs: calculate_similarity", "visqol-rs/src/similarity_result.rs: SimilarityResult", "visqol-rs/src/neurogram_similiarity_index_measure.rs: measure_patch_similarity"]}
{"id": "C06", "title": "Reported aggregates are the means of the reported patches", "statement": "In every Ok result vnsim is the mean of fvnsim, and band b of fvnsim (fvdegenergy) is the mean over patch_sims of the patches' band-b means (degraded energies). In floating point, in a run with finite scores (C74) and at most 32 bands, vnsim is within a millionth of the mean of fvnsim, band b of fvnsim is within (n + 3) / 2^33 of the mean over the n reported patches, band b of fvdegenergy within (n + 3) / 2^38, and each patch's similarity is within a millionth of the mean of its band similarities.", "quantifier": "all inputs", "why_tests_cant": "all patch counts and band counts", "anchors": ["visqol-rs/src/visqol.rs: calc_per_patch_mean_freq_band_means, calc_per_patch_mean_freq_band_degraded_energy"]}
{"id": "C07", "title": "Similarity scores never exceed 1", "statement": "In exact arithmetic the NSIM of any two equally shaped patches has every band mean in (-1, 1], hence the overall similarity too, and so vnsim and every fvnsim entry of any Ok result lies in [-1, 1]. In double precision, for levels of at most 256 dB and patches that around every cell either both vary (windowed variance at least 1/16) or of which one is zero, band means and similarity lie in [-1.00001, 1.00001].", "quantifier": "all real patches of every shape, all signals", "why_tests_cant": "needs Cauchy-Schwarz over all matrices; tests try one 3x1 patch", "anchors": ["visqol-rs/src/neurogram_similiarity_index_measure.rs: measure_patch_similarity", "visqol-rs/src/convolution_2d.rs: perform_valid_2d_conv_with_boundary"]}
{"id": "C08", "title": "A patch compared with itself scores exactly 1", "statement": "NSIM of any patch with itself is 1 in every band, with standard deviation 0 in every band, and overall similarity 1 (exact arithmetic), and the NaN-avoidance branch is never taken. In floating point the same comparison succeeds and every band mean and the similarity are within 0.0001 of 1 for all levels of at most 256 dB (the variance, computed as a difference of averages, may come out slightly negative but never by enough to matter). For 2 to 1024 columns the band deviations lie between 0 and 0.0003.", "quantifier": "all real patches of every non-empty shape; in floating point all patches of up to 2^20 bands and columns with finite levels of at most 256", "why_tests_cant": "all matrices", "anchors": ["visqol-rs/src/neurogram_similiarity_index_measure.rs: measure_patch_similarity"]}
{"id": "C09", "title": "NSIM is symmetric", "statement": "Swapping the reference and degraded patch changes neither the band means, the band deviations nor the similarity. This holds exactly, bit for bit up to the payload of a NaN, in every arithmetic whose addition and multiplication are commutative, IEEE floating point included.", "quantifier": "all pairs of equally shaped patches", "why_tests_cant": "all matrices", "anchors": ["visqol-rs/src/neurogram_similiarity_index_measure.rs: measure_patch_similarity"]}
{"id": "C10", "title": "Band standard deviations are non-negative", "statement": "In every Ok result no fstdnsim entry is a negative number, and (exact arithmetic) every per-patch band deviation equals the sample standard deviation (ddof 1) of the similarity map's row. In double precision, where the cells of the similarity map are of at most 2 and the bands have 2 to 1024 cells, every per-patch band deviation is within 0.00005 of that sample standard deviation.", "quantifier": "all inputs", "why_tests_cant": "all similarity maps", "anchors": ["visqol-rs/src/visqol.rs: calc_per_patch_mean_freq_band_std_devs", "visqol-rs/src/neurogram_similiarity_index_measure.rs: measure_patch_similarity"]}
{"id": "C11", "title": "Comparing a file with itself gives a perfect score", "statement": "In exact arithmetic, if a run on identical reference and degraded signals returns Ok then every fvnsim entry is 1, vnsim is 1, every fstdnsim entry is 0 and the wideband MOS is the maximal one; and it does return Ok for references long enough to have at least two usable patches if the mapper gives a prediction and the rounding of the hop does not add up to more than a window (the condition of C63; C76 shows that it is needed). In floating point, when an Ok run on an ordinary signal (samples up to 2 in absolute value, not silent, at most 2^24 of them) returns finite scores and the autocorrelation of its exact envelope at every other lag is below its energy by more than n*sqrt(n)/2^26, then vnsim is at least 0.989 and the wideband MOS is at least 4.8 (scaled) or 3.99 (unscaled).", "quantifier": "all signals, every search radius covering the file", "why_tests_cant": "end-to-end over all signals; tests use two files", "anchors": ["visqol-rs/src/visqol_manager.rs: run, compute_results", "visqol-rs/src/visqol.rs: calculate_similarity", "visqol-rs/src/comparison_patches_selector.rs", "visqol-rs/src/alignment.rs", "visqol-rs/src/xcorr.rs"]}
{"id": "C12", "title": "Degraded level does not matter after alignment", "statement": "Multiplying the (aligned) degraded signal by any positive gain does not change the similarity result in exact arithmetic. In floating point the samples that are compared with the reference's change by a relative error of at most 2^-33 plus the number of samples over 2^46.", "quantifier": "all signal pairs with non-zero energy, all positive gains", "why_tests_cant": "all gains and signals", "anchors": ["visqol-rs/src/audio_utils.rs: scale_to_match_sound_pressure_level", "visqol-rs/src/visqol.rs: calculate_similarity"]}
{"id": "C13", "title": "Level matching equalises the RMS", "statement": "After level matching, the degraded signal has the same number of samples, the same sample rate and (exact arithmetic, both signals non-silent) exactly the same RMS as the reference; it is the original times one positive constant. In floating point, for samples up to 2 in size and signals with a sample of at least 2^-40, the RMS is equal up to a relative error of 2^-34 plus the number of samples over 2^48, and every sample is the original times one positive constant up to one rounding.", "quantifier": "all signal pairs", "why_tests_cant": "all signals", "anchors": ["visqol-rs/src/audio_utils.rs: scale_to_match_sound_pressure_level, calculate_sound_pressure_level"]}
{"id": "C14", "title": "Results do not depend on earlier runs", "statement": "For any history of earlier run calls on one VisqolManager (successful, failed, other sample rates), the next run returns exactly what a freshly constructed manager would return.", "quantifier": "all finite histories of run calls and all inputs, any arithmetic", "why_tests_cant": "quantifies over unbounded call histories", "anchors": ["visqol-rs/src/visqol_manager.rs: VisqolManager::run", "visqol-rs/src/gammatone_filterbank.rs: reset_filter_conditions, set_filter_coefficients", "visqol-rs/src/gammatone_spectrogram_builder.rs: build"]}
{"id": "C15", "title": "Batch results line up with the file list", "statement": "If the CLI batch run succeeds, it yields exactly one result per listed pair, in list order, each equal to running that pair alone; if some pair fails, the whole batch fails with the failure of the first failing pair and nothing is written.", "quantifier": "all batch lists and all file contents", "why_tests_cant": "arbitrary batch lengths and failure positions", "anchors": ["visqol/src/main.rs: run, main", "visqol/src/output_utils.rs: write_results"]}
{"id": "C16", "title": "Sample-rate mismatch is always rejected", "statement": "If both files load but have different sample rates, run returns DifferentSampleRates carrying the two rates in order, whatever their contents; if rates match this error is never returned. A duration mismatch is never rejected.", "quantifier": "all file pairs", "why_tests_cant": "all contents and rates", "anchors": ["visqol-rs/src/visqol_manager.rs: validate_input_audio, run"]}
{"id": "C17", "title": "Only 16-bit files are accepted", "statement": "A wav file whose header says anything other than 16 bits per sample yields InvalidBitsPerSample carrying that value, without reading samples; a loaded 16-bit file keeps every sample value unchanged.", "quantifier": "all headers and sample data", "why_tests_cant": "all bit depths, all sample values", "anchors": ["visqol-rs/src/wav_reader.rs: WavFile::open"]}
{"id": "C18", "title": "Mono downmix is the channel average", "statement": "Loading a file with c channels and n frames gives n samples; sample i is the average over channels of the interleaved 16-bit values divided by 32767, hence lies within [-32768/32767, 1]; the sample rate is preserved. In double precision each sample differs from the exact average by at most (c+1)/2^49.", "quantifier": "all channel counts, lengths and sample values", "why_tests_cant": "all contents", "anchors": ["visqol-rs/src/audio_utils.rs: load_as_mono, extract_multichannel, to_mono_matrix", "visqol-rs/src/math_utils.rs: normalize_int16_to_double"]}
{"id": "C19", "title": "Empty signals fail with FailedToAlignSignals", "statement": "If the reference or the degraded signal has no samples, compute_results returns the error FailedToAlignSignals (no panic).", "quantifier": "all signals and both positions", "why_tests_cant": "boundary for every partner signal", "anchors": ["visqol-rs/src/alignment.rs: globally_align", "visqol-rs/src/envelope.rs: calculate_upper_env"]}
{"id": "C20", "title": "Too-short signals fail with TooFewSamples", "statement": "A signal shorter than one analysis window makes the spectrogram builder return TooFewSamples with the actual and the required length, and this error is returned only then.", "quantifier": "all signal lengths and sample rates", "why_tests_cant": "all lengths", "anchors": ["visqol-rs/src/gammatone_spectrogram_builder.rs: build"]}
{"id": "C21", "title": "Spectrogram shape and locality", "statement": "A successfully built spectrogram has NUM_BANDS rows and 1+(len-window)/hop columns, and column j is a function of samples [j*hop, j*hop+window) only: signals agreeing there have equal columns j, wherever the frame sits and whatever precedes it.", "quantifier": "all signals, window sizes and hops, any arithmetic", "why_tests_cant": "all signals and frame positions", "anchors": ["visqol-rs/src/gammatone_spectrogram_builder.rs: build", "visqol-rs/src/gammatone_filterbank.rs: apply_filter"]}
{"id": "C22", "title": "Bands are reported lowest to highest and match their rows", "statement": "In exact arithmetic, whenever the upper frequency exceeds the minimum frequency and that is not negative, center_freq_bands is strictly increasing, starts at exactly the minimum frequency, stays below the upper limit, has NUM_BANDS entries, and row b of the spectrogram was filtered with the coefficients of center_freq_bands[b]. In floating point, for the 50 Hz minimum frequency of the managers, sample rates from 1000 Hz to 1 MHz and at most 64 bands, the reported frequencies are finite, strictly increasing, start within 0.001 Hz of 50 Hz, stay below the upper limit, and row b is computed with the coefficients of center_freq_bands[b].", "quantifier": "all sample rates, frequency limits and band counts", "why_tests_cant": "all sample rates", "anchors": ["visqol-rs/src/equivalent_rectangular_bandwidth.rs: make_filters, calculate_uniform_center_freqs", "visqol-rs/src/gammatone_spectrogram_builder.rs: build"]}
{"id": "C23", "title": "Prepared spectrograms are floored", "statement": "After preparation both spectrograms keep their shapes, every entry is >= 0, the smallest entry over both is exactly 0 and in every common frame no entry lies more than 45 dB below the louder of the two frames' peaks. In double arithmetic, for spectrograms without infinite entries (NaN allowed), the same holds with finite entries, the 45 dB up to 2^-30 dB. Every level is the decibel value of its entry, raised to -45 and in common frames to 45 below the peak, minus the lowest of these; in double arithmetic up to 2^-34 dB, for finite entries of at most 2^100.", "quantifier": "all pairs of spectrograms", "why_tests_cant": "all matrices", "anchors": ["visqol-rs/src/audio_utils.rs: prepare_spectrograms_for_comparison", "visqol-rs/src/spectrogram.rs: raise_floor, raise_floor_per_frame, subtract_floor, convert_to_db"]}
{"id": "C24", "title": "Preparation removes NaN", "statement": "Under IEEE semantics preparation never panics on NaN: whatever NaNs the raw non-empty spectrograms contain, the prepared ones are NaN-free as long as the raw ones have no infinite entry. Every entry of the prepared ones is a number of at most 4000 in size.", "quantifier": "all spectrograms with arbitrary NaN positions, all roundings", "why_tests_cant": "all NaN patterns", "anchors": ["visqol-rs/src/spectrogram.rs: raise_floor", "visqol-rs/src/audio_utils.rs: prepare_spectrograms_for_comparison"]}
{"id": "C25", "title": "Fullband reference patches tile the spectrogram", "statement": "For the fullband patch creator (patch size 20) and n columns: if n < 30 the result is ReferenceSpectrogramTooSmall{n, 10}; otherwise the patch starts are exactly 9, 29, 49, ... below max(n-21, 10), each patch lies inside the spectrogram and patches never overlap.", "quantifier": "all column counts", "why_tests_cant": "all lengths", "anchors": ["visqol-rs/src/image_patch_creator.rs: create_ref_patch_indices_from_spectrogram, create_patches_from_indices"]}
{"id": "C26", "title": "Wideband reference patches are in range exactly when 44 columns exist", "statement": "For the wideband patch creator (patch size 30) on a spectrogram built from the signal: with at least 44 columns, patch starts are a subsequence of 14, 44, 74, ... all patches lie inside the spectrogram and the voice-activity slice lies inside the signal.", "quantifier": "all signals and sample rates giving at least 44 columns", "why_tests_cant": "all lengths", "anchors": ["visqol-rs/src/vad_patch_creator.rs: create_ref_patch_indices, create_patches_from_indices"]}
{"id": "C27", "title": "Short wideband references panic", "statement": "A wideband reference whose spectrogram has fewer than 44 columns (under about 0.94 s) never produces a result or an error value: it panics. (Defect: documented errors exist for this.)", "quantifier": "all references with fewer than 44 columns, both overflow-check profiles", "why_tests_cant": "all short lengths", "anchors": ["visqol-rs/src/vad_patch_creator.rs: create_ref_patch_indices, get_voice_activity, create_patches_from_indices", "visqol-rs/src/rms_vad.rs: get_vad_results"]}
{"id": "C28", "title": "One-patch references panic and SignalsTooDifferent is unreachable", "statement": "If only the first patch of the reference is usable (fullband under 51 columns, wideband with voice only in the first patch) the run panics; and no run ever returns SignalsTooDifferent. (Defect.)", "quantifier": "all inputs, both profiles", "why_tests_cant": "all inputs; absence of an outcome", "anchors": ["visqol-rs/src/comparison_patches_selector.rs: calc_max_num_patches, find_most_optimal_deg_patches"]}
{"id": "C29", "title": "Voice-activity smoothing", "statement": "Frame i of the VAD output is inactive exactly when i >= 2 and frames i, i-1 and i-2 are all below the RMS threshold; the output has max(2, number of frames) entries, so the first two frames always count as active.", "quantifier": "all frame sequences", "why_tests_cant": "all sequences", "anchors": ["visqol-rs/src/rms_vad.rs: get_vad_results, check_previous_chunks_for_silence, process_chunk"]}
{"id": "C30", "title": "Voiced patches are never dropped", "statement": "A wideband patch is kept exactly when one of the VAD frames it is judged by is active: the patch starting at frame 14+30k is judged by the RMS of frames 30k..30k+29 of the signal from sample 14 on. In exact arithmetic this is stated in terms of the samples: each sample x counts as 32768 x / M without its fraction, limited to 16 bits, where M is the largest (signed) sample of the reference. In floating point 32768 x / M is computed with a relative error of 2^-50; the comparison of the RMS of the 16-bit values with 5000 is exact. The first patch is always kept, and so is every patch judged by a frame whose RMS reaches 5000 and its predecessor. (See C60 for the offset.)", "quantifier": "all reference signals", "why_tests_cant": "all signals", "anchors": ["visqol-rs/src/vad_patch_creator.rs: create_ref_patch_indices, get_voice_activity", "visqol-rs/src/rms_vad.rs"]}
{"id": "C31", "title": "Reference level does not influence patch selection", "statement": "Multiplying the reference by a positive gain leaves the wideband patch selection unchanged (exact arithmetic). In floating point the same holds where every sample is multiplied exactly (as by a power of two, away from overflow and underflow) and no negative sample exceeds the positive peak by a factor of more than 2^900.", "quantifier": "all references with positive peak, all gains", "why_tests_cant": "all gains", "anchors": ["visqol-rs/src/math_utils.rs: normalize_signal", "visqol-rs/src/vad_patch_creator.rs: create_ref_patch_indices"]}
{"id": "C32", "title": "Matched degraded patches are in temporal order", "statement": "In the coarse matching stage, the degraded start times of matched (non-dropped) reference patches strictly increase with the reference patch; no two reference patches share a degraded patch.", "quantifier": "all spectrograms, patch sets and windows, any arithmetic", "why_tests_cant": "all similarity landscapes", "anchors": ["visqol-rs/src/comparison_patches_selector.rs: find_most_optimal_deg_patch, find_most_optimal_deg_patches"]}
{"id": "C33", "title": "Patch matching is globally optimal", "statement": "When the search window covers the whole degraded spectrogram, the chosen assignment of degraded offsets maximises the total similarity over all order-preserving assignments in which every reference patch but the first may be skipped (sums in exact arithmetic). The first reference patch is always matched: the program has no way to skip it. In floating point the same holds for the totals as the program accumulates them: no other assignment has a larger rounded running total, provided the similarities are finite numbers.", "quantifier": "all similarity landscapes, patch counts and lengths", "why_tests_cant": "exponentially many assignments", "anchors": ["visqol-rs/src/comparison_patches_selector.rs: find_most_optimal_deg_patch, find_most_optimal_deg_patches"]}
{"id": "C34", "title": "Matching never indexes out of range", "statement": "Coarse matching does not panic when at least one reference patch is usable, the search radius is not negative, start indices are increasing and no reference index exceeds the degraded length by more than the search window. In floating point it also needs similarities that are finite numbers (C73 gives them).", "quantifier": "all spectrograms and windows", "why_tests_cant": "all index combinations", "anchors": ["visqol-rs/src/comparison_patches_selector.rs: find_most_optimal_deg_patch, find_most_optimal_deg_patches, build_degraded_patch"]}
{"id": "C35", "title": "Unmatched patches are reported as silent", "statement": "A reference patch with no match is reported by the coarse stage with similarity 0, all band means 0 and degraded times 0..0, and the fine alignment passes it through unchanged.", "quantifier": "all inputs", "why_tests_cant": "all landscapes", "anchors": ["visqol-rs/src/comparison_patches_selector.rs: find_most_optimal_deg_patches, finely_align_and_recreate_patches"]}
{"id": "C36", "title": "Fine alignment never lowers a patch's similarity", "statement": "For every patch, the similarity after fine alignment is not less than the one before it, and the number and order of patches is unchanged.", "quantifier": "all inputs, any arithmetic", "why_tests_cant": "all signals", "anchors": ["visqol-rs/src/comparison_patches_selector.rs: finely_align_and_recreate_patches"]}
{"id": "C37", "title": "Aligned pairs have equal length", "statement": "align_and_truncate returns a reference and a degraded segment of equal length, the reference segment is a contiguous piece of the input reference, and sample rates are preserved.", "quantifier": "all pairs of signals with equal sample rate, any arithmetic", "why_tests_cant": "all lengths and lags", "anchors": ["visqol-rs/src/alignment.rs: align_and_truncate"]}
{"id": "C38", "title": "Time slicing is sample accurate", "statement": "slice(signal, start, end) for 0 <= start <= end (exact arithmetic) has exactly floor(end*fs)-floor(start*fs) samples when start is inside the signal, sample k is the signal's sample floor(start*fs)+k, and positions past the end are 0. In IEEE arithmetic a successful slice has (end-start)*fs samples up to 1.001, starts at floor(start*fs) up to a thousandth of a sample, and again sample k is the signal's sample at that start plus k, 0 past the end.", "quantifier": "all signals, rates and times", "why_tests_cant": "all boundaries", "anchors": ["visqol-rs/src/comparison_patches_selector.rs: slice"]}
{"id": "C39", "title": "Global alignment only shifts", "statement": "globally_align either returns the degraded signal unchanged with lag 0, or prepends exactly lag zeros, or drops exactly -lag leading samples; |lag| never exceeds half the reference length; no other sample changes.", "quantifier": "all signal pairs, any arithmetic", "why_tests_cant": "all signals and lags", "anchors": ["visqol-rs/src/alignment.rs: globally_align"]}
{"id": "C40", "title": "Best lag maximises the cross-correlation", "statement": "In exact arithmetic, for two signals the longer of which has at least 9 samples, calculate_best_lag returns a lag of magnitude below the longer length whose absolute linear cross-correlation is the largest over all such lags. If several lags reach it, the last of them decides on the sign of the correlation, and the smallest lag with that sign is returned. In floating point the absolute cross-correlation at the lag returned is the largest up to 8*sqrt(n)*(|x|+1)*(|y|+1)/2^40, n the longer length (up to 2^24) and |x|, |y| the Euclidean norms of the two signals.", "quantifier": "all signal pairs", "why_tests_cant": "all signals", "anchors": ["visqol-rs/src/xcorr.rs: calculate_best_lag, calculate_inverse_fft_pointwise_product, calculate_fft_pointwise_product, frexp", "visqol-rs/src/fft_manager.rs", "visqol-rs/src/fast_fourier_transform.rs"]}
{"id": "C41", "title": "FFT sizes always suffice", "statement": "next_pow_two(n) for 1 <= n <= 2^63 is at least n and at most the true next power of two, is exact for powers of two and for n <= 512, and is even for even n, but is not a power of two in general (513 -> 1023, 1025 -> 2045; a defect the unit test misses).", "quantifier": "all sizes", "why_tests_cant": "all 64-bit sizes; the unit test samples 8", "anchors": ["visqol-rs/src/math_utils.rs: next_pow_two", "visqol-rs/src/fft_manager.rs: FftManager::new"]}
{"id": "C42", "title": "2-D filtering is a replicate-padded convolution", "statement": "perform_valid_2d_conv_with_boundary keeps the input shape and computes, for every cell, the weighted sum of its 3x3 neighbourhood with border cells replicated, using the transposed-and-flipped kernel; with a symmetric kernel this is the true convolution. In floating point, with all products of cells and weights at most P (1 <= P <= 2^900), every resulting cell is finite and within P/2^45 of that sum.", "quantifier": "all matrices of non-zero size, all 3x3 kernels", "why_tests_cant": "all matrices", "anchors": ["visqol-rs/src/convolution_2d.rs: perform_valid_2d_conv_with_boundary, add_matrix_boundary, copy_matrix_within_padding, flatten_matrix"]}
{"id": "C43", "title": "The NSIM window is a weighted average", "statement": "The NSIM window's weights are positive, symmetric and sum to exactly 1 in decimal arithmetic, so the filtered value of every cell lies between the smallest and largest value of its neighbourhood and constant patches are unchanged. In floating point, with cells of size at most B (1 <= B <= 2^900), the filtered values are finite and stay between those extremes up to B/2^45.", "quantifier": "all matrices", "why_tests_cant": "all matrices", "anchors": ["visqol-rs/src/neurogram_similiarity_index_measure.rs: measure_patch_similarity", "visqol-rs/src/convolution_2d.rs"]}
{"id": "C44", "title": "Filtering obeys the biquad recurrence", "statement": "filter_signal computes y[n] = b0 x[n] + b1 x[n-1] + b2 x[n-2] - a1 y[n-1] - a2 y[n-2]; it is causal, length preserving, linear, and filtering in chunks while carrying the conditions equals filtering at once. In floating point, for a stable section started at rest and at most 2^17 samples, the outputs are finite and obey the recurrence up to 2^-45 times the largest of the outputs, the products of inputs and numerator coefficients, and 1.", "quantifier": "all coefficients, signals and chunkings", "why_tests_cant": "all signals", "anchors": ["visqol-rs/src/signal_filter.rs: filter_signal"]}
{"id": "C45", "title": "Gammatone sections are stable", "statement": "In exact arithmetic, for every positive centre frequency and sample rate both poles of every gammatone section lie strictly inside the unit circle. In floating point, for sample rates from 1000 Hz to 1 MHz and at most 64 bands, the stored feedback coefficients of every band are finite and describe a filter whose poles lie strictly inside the unit circle, and windows of ordinary samples are filtered to finite numbers.", "quantifier": "all sample rates and centre frequencies", "why_tests_cant": "a continuum of parameters", "anchors": ["visqol-rs/src/equivalent_rectangular_bandwidth.rs: make_filters"]}
{"id": "C46", "title": "A digitally silent degraded file never gets a score", "statement": "Under IEEE semantics (any rounding) a run whose degraded signal is all zeros never returns Ok for any reference and any search radius >= 1 whose search window fits into 32 bits: it fails or panics. (Defect.) The signals together have at most 2^36 samples, the rate is positive and below 2^32, and the column times do not run past the end of the signal (always so if the 80 ms window is a multiple of four samples).", "quantifier": "all references, both modes, all managers, all roundings", "why_tests_cant": "all references", "anchors": ["visqol-rs/src/audio_utils.rs: scale_to_match_sound_pressure_level, calculate_sound_pressure_level", "visqol-rs/src/xcorr.rs: calculate_best_lag"]}
{"id": "C47", "title": "A silent reference is perfectly similar to anything in fullband", "statement": "Under IEEE semantics, a fullband run whose reference samples are all zero gives vnsim exactly 1, and every fvnsim entry exactly 1, whenever it returns Ok: the degraded file, whatever it contains, counts as perfectly similar. Conditions: search radius at least 1 and small enough for the i32 window arithmetic; signals that fit the size limits of the column arithmetic (2^36 samples together, 2^31 in the reference); the frame-time rounding drift stays within one window (always so when the window length is a multiple of 4, as at 48 kHz). For ordinary degraded files (the conditions of C74) the run does return Ok, so the perfect score is really given. (Anomaly.)", "quantifier": "all finite degraded signals, all sample rates, all search radii from 1", "why_tests_cant": "all signals", "anchors": ["visqol-rs/src/audio_utils.rs: scale_to_match_sound_pressure_level", "visqol-rs/src/spectrogram.rs: convert_to_db, raise_floor"]}
{"id": "C48", "title": "CLI file-pair selection", "statement": "With both file options the CLI compares exactly that pair and ignores the batch file; otherwise it compares the batch file's data rows in order, columns taken by position regardless of the header row's names; otherwise nothing.", "quantifier": "all argument combinations and batch files", "why_tests_cant": "all batch files", "anchors": ["visqol/src/command_line_utils.rs: build_file_pair_paths, read_files_to_compare"]}
{"id": "C49", "title": "Debug JSON keeps only the last result", "statement": "The debug JSON file written for n >= 1 results contains exactly the last result's JSON, not all of them as the option's documentation says; the previous content is replaced. (Defect.)", "quantifier": "all result lists", "why_tests_cant": "all batch lengths", "anchors": ["visqol/src/output_utils.rs: write_debug_json"]}
{"id": "C50", "title": "Results CSV and console rows", "statement": "When the tool ends normally, the results CSV holds exactly one record per result in order, and the console shows one MOS line per pair in order, in verbose mode preceded by the two paths of that pair and followed by a table with one row per band (similarity, centre frequency) and one with one row per patch (number, similarity, times). Nothing else is printed except the version line, which comes first. The columns of a CSV record are the score, vnsim, then for each of the n bands (21 wideband, 32 fullband) the similarity, its standard deviation, the energy and the centre frequency, then 3n+5 columns per patch.", "quantifier": "all result lists", "why_tests_cant": "all batch lengths", "anchors": ["visqol/src/output_utils.rs: write_results_to_csv, write_results"]}
{"id": "C51", "title": "Search radius is used modulo 2^32", "statement": "Only the low 32 bits of the requested search radius matter; a radius whose window does not fit in i32 never gives a result under overflow checks.", "quantifier": "all 64-bit radii", "why_tests_cant": "all radii", "anchors": ["visqol-rs/src/visqol.rs: calculate_similarity", "visqol-rs/src/comparison_patches_selector.rs: find_most_optimal_deg_patches"]}
{"id": "C52", "title": "Reported patch times are consistent", "statement": "Before fine alignment every patch has ref_end-ref_start equal to the patch duration and matched patches have deg_end-deg_start equal to it; after it a realigned patch has equal reference and degraded duration, and reference start times move forward by at most half a patch. In IEEE arithmetic the same holds for the reported result up to fractions of a sample: all times are finite, a patch starts at the time of its column or up to half a patch later, is at least one analysis window (or one patch, if that is shorter) and at most one patch long, and its match is equally long (within 1/100 of a sample).", "quantifier": "all inputs", "why_tests_cant": "all inputs", "anchors": ["visqol-rs/src/comparison_patches_selector.rs: find_most_optimal_deg_patches, finely_align_and_recreate_patches"]}
{"id": "C53", "title": "Frame times drift when the window is not a multiple of 4", "statement": "In exact arithmetic coarse matching reports a patch that starts at spectrogram column i as starting at i*W/4 samples (W = window size), although its columns are computed from the samples from i*floor(W/4) on; so the reported start, and the audio that fine alignment re-analyses, is i*(W mod 4)/4 samples late: exact if and only if W is a multiple of 4, drifting linearly otherwise (e.g. 11025 Hz). In IEEE arithmetic the reported start, converted to samples, equals that value up to a relative error of 2^-47 (sample rate at least 50 Hz, signals shorter than 2^31 samples).", "quantifier": "all sample rates", "why_tests_cant": "all sample rates", "anchors": ["visqol-rs/src/visqol.rs: calculate_frame_duration, calculate_similarity", "visqol-rs/src/gammatone_spectrogram_builder.rs: build", "visqol-rs/src/analysis_window.rs"]}
{"id": "C54", "title": "Reference patches are dropped only from the end", "statement": "The coarse stage keeps the longest prefix of reference patches whose last member starts at most half a patch after the end of the degraded spectrogram, and returns one result per kept patch.", "quantifier": "all index lists and lengths", "why_tests_cant": "all lengths", "anchors": ["visqol-rs/src/comparison_patches_selector.rs: calc_max_num_patches"]}
{"id": "C55", "title": "Centre frequencies depend only on rate and bands", "statement": "center_freq_bands of a result is a function of the sample rate and NUM_BANDS alone.", "quantifier": "all inputs, any arithmetic", "why_tests_cant": "relation between all pairs of runs", "anchors": ["visqol-rs/src/gammatone_spectrogram_builder.rs: build", "visqol-rs/src/visqol.rs: calculate_similarity"]}
{"id": "C56", "title": "The alignment envelope", "statement": "In exact arithmetic the 'upper envelope' used for alignment has one value per input sample. For a signal x of at least two samples transformed with N points, N the padded size (C41) or 32 if larger, it is |2(x - mean - m) - 1e-6| + mean, where m is zero if N is the length of x or odd, and otherwise the component of x - mean at the highest frequency of the N point transform. So it is a rectified signal and not a Hilbert envelope. (Anomaly.) In floating point the computed envelope of a signal of n samples of at most 2 in absolute value differs from this in root mean square by at most 2^-32 + n/2^46.", "quantifier": "all signals of 2 to 2^63 samples", "why_tests_cant": "all signals", "anchors": ["visqol-rs/src/envelope.rs: calculate_upper_env, calculate_hilbert", "visqol-rs/src/fast_fourier_transform.rs: inverse_1d"]}
{"id": "C57", "title": "Patch sizes of the two modes are exchanged", "statement": "Wideband (speech) comparisons use patches of 30 frames and fullband (audio) comparisons patches of 20 frames, although the constants and comments of the code (and the original algorithm) intend 20 frames for speech and 30 for audio; every reference patch of a run has exactly that many columns. (Anomaly.)", "quantifier": "all runs", "why_tests_cant": "relation between all runs of both modes", "anchors": ["visqol-rs/src/constants.rs: PATCH_SIZE_*", "visqol-rs/src/visqol_manager.rs: new", "visqol-rs/src/vad_patch_creator.rs", "visqol-rs/src/image_patch_creator.rs"]}
{"id": "C58", "title": "Results CSV needs equal patch counts", "statement": "If every pair of a batch succeeds but two results have different numbers of patches, a requested results CSV makes the tool panic after all comparisons: no MOS line is printed and no complete CSV is written. With equal counts and writable paths the tool ends normally. (Defect.)", "quantifier": "all batches", "why_tests_cant": "all combinations of results", "anchors": ["visqol/src/output_utils.rs: write_results_to_csv, write_results"]}
{"id": "C59", "title": "Outputs do not name the files they belong to", "statement": "Two batches whose files have pairwise the same contents give, without --verbose, the same trace: neither the results CSV nor the debug JSON nor the console line identifies the pair. (The documentation promises columns reference,degraded,moslqo.)", "quantifier": "all batches, all file names", "why_tests_cant": "relation between all pairs of runs", "anchors": ["visqol/src/output_utils.rs", "visqol/src/command_line_utils.rs"]}
{"id": "C60", "title": "The voice activity detector looks at the wrong samples", "statement": "The signal part examined by the voice activity detector starts at sample 14, not at the first sample of frame 14: the patch creator uses a frame index as a sample index. Speech that lies only in the frames of a patch can be judged by frames up to 14 hops earlier. (Defect.)", "quantifier": "all reference signals", "why_tests_cant": "all signals", "anchors": ["visqol-rs/src/vad_patch_creator.rs: get_voice_activity, create_ref_patch_indices"]}
{"id": "C61", "title": "A degraded file much shorter than the reference is never scored", "statement": "If a reference patch starts further past the end of the degraded spectrogram than the search window reaches, matching stops with a panic instead of dropping the patch or reporting an error: the matching loop leaves the spectrogram only when the offset equals its length exactly. In fullband mode the comparison never gets a score when the reference spectrogram exceeds the aligned degraded one by the search window (times 20) and 50 columns, and it panics if the aligned degraded signal has at least one window. (Defect.)", "quantifier": "all signals, all search windows, all arithmetic", "why_tests_cant": "all signals and lengths", "anchors": ["visqol-rs/src/comparison_patches_selector.rs: find_most_optimal_deg_patch, build_degraded_patch"]}
{"id": "C62", "title": "A match must start inside both signals by its reported time", "statement": "In exact arithmetic, whenever a comparison returns Ok, every reference patch that has a match is reported (before fine alignment) to start inside the reference, and its match inside the degraded signal; so if the drift of C53 carries the reported start of a matched patch past the end of the signal, no score is returned. (Defect.) In IEEE arithmetic the same holds up to one sample (equal rates of at least 50 Hz, signals shorter than 2^31 samples).", "quantifier": "all signals, sample rates, variants and search radii", "why_tests_cant": "needs long files at unusual sample rates; all signals", "anchors": ["visqol-rs/src/comparison_patches_selector.rs: slice, finely_align_and_recreate_patches, find_most_optimal_deg_patches", "visqol-rs/src/visqol.rs: calculate_frame_duration"]}
{"id": "C63", "title": "Comparisons of ordinary signals always return a result", "statement": "In exact arithmetic (where a quotient by zero counts as 0), compute_results returns Ok for every pair of signals of equal sample rate such that: the reference has a second usable patch (fullband: at least 51 spectrogram columns; wideband: a later patch with an active frame), the degraded signal is longer than half the reference by at least a window, the search window reaches from the last reference patch to the shortest possible aligned degraded signal, the rounding of the hop does not add up to more than a window (always so at 8, 16, 32, 44.1 and 48 kHz), sizes stay below 2^30, and the quality mapper yields a prediction. No panic, no error, no silent failure of any stage in between.", "quantifier": "all signals, sample rates, search windows and both build profiles meeting these conditions", "why_tests_cant": "the absence of a panic over all signals cannot be tested", "anchors": ["visqol-rs/src/visqol_manager.rs: compute_results", "visqol-rs/src/visqol.rs: calculate_similarity", "visqol-rs/src/comparison_patches_selector.rs", "visqol-rs/src/alignment.rs", "visqol-rs/src/gammatone_spectrogram_builder.rs"]}
{"id": "C64", "title": "The number of fullband patch results depends on lengths only", "statement": "Whenever a fullband comparison returns Ok, the number of patch results is the number of k for which patch k (starting at column 9+20k) lies more than 21 columns before the end of the reference spectrogram and starts at most ten columns past the end of the aligned degraded spectrogram. In particular no other reference patch is dropped and none is added, whatever the signals contain.", "quantifier": "all signals, search windows, arithmetics", "why_tests_cant": "all signals and lengths", "anchors": ["visqol-rs/src/image_patch_creator.rs: create_ref_patch_indices", "visqol-rs/src/comparison_patches_selector.rs: calc_max_num_patches, find_most_optimal_deg_patches", "visqol-rs/src/visqol.rs: calculate_similarity"]}
{"id": "C65", "title": "The patch comparison is the published NSIM formula", "statement": "In exact arithmetic, comparing two patches of the same shape succeeds exactly if they are not empty. The similarity of every cell is then the intensity term (2 mu_r mu_d + 0.01^2)/(mu_r^2 + mu_d^2 + 0.01^2) times the structure term (cov_rd + 0.03^2/2)/(sigma_r sigma_d + 0.03^2/2), where averages and covariances are taken with the 3x3 Gaussian window over the cell's neighbours (cells outside the patch replaced by the nearest one inside). The reported per-band mean and standard deviation are the mean and the sample standard deviation of a band's cells, the similarity is the mean of the band means, and the per-band energy is the mean level of the degraded band. In double precision, for levels of at most 256 dB and patches that around every cell either both vary (windowed variance at least 1/16) or of which one is zero throughout the window, every band mean is within 0.00001 of this formula and the similarity within 0.00001 of the mean of those means; with 2 to 1024 columns every band deviation is within 0.0001 of the formula's. The energies are within 0.000001 of the mean levels for any levels of at most 256 dB. Comparing two files, or two signals of the same sample rate, never combines patches of different shapes, so this formula covers every patch comparison such a run makes.", "quantifier": "all pairs of patches of the same shape, whatever that shape and their content", "why_tests_cant": "the formula over all real-valued patches and shapes; a test only sees single numbers", "anchors": ["visqol-rs/src/neurogram_similiarity_index_measure.rs: measure_patch_similarity", "visqol-rs/src/convolution_2d.rs", "visqol-rs/src/patch_similarity_comparator.rs: PatchSimilarityResult"]}
{"id": "C66", "title": "Gammatone filters have unit gain at their centre frequency", "statement": "In exact arithmetic, the four cascaded sections of the band with centre frequency f (0 < f < half the sample rate) have their poles at radius exp(-2 pi 1.019 ERB(f)/rate) and angle 2 pi f/rate, ERB(f) = f/9.26449 + 24.7, their zeros where Slaney's factorisation of the gammatone filter puts them, and together a frequency response of modulus exactly one at f. A tone of frequency f, any amplitude and any phase therefore leaves the freshly reset filters of that band as a tone of the same frequency and the same amplitude, up to a transient that dies out. This holds for every band reported by a spectrogram.", "quantifier": "all sample rates, centre frequencies, amplitudes, phases, signal lengths", "why_tests_cant": "limit statement over all rates and frequencies; a test compares a few coefficients with stored numbers", "anchors": ["visqol-rs/src/equivalent_rectangular_bandwidth.rs: make_filters", "visqol-rs/src/gammatone_filterbank.rs: apply_filter", "visqol-rs/src/signal_filter.rs: filter_signal"]}
{"id": "C67", "title": "Bands are equally spaced on the ERB scale", "statement": "In exact arithmetic, the centre frequency reported at position i of n bands has the ERB number E(lo) + i/n (E(hi) - E(lo)), with E(f) = 9.26449 ln(1 + f/(9.26449*24.7)), lo the minimum frequency and hi the upper limit (8 kHz wideband, half the sample rate fullband, never above half the sample rate). In floating point, for the 50 Hz minimum frequency, sample rates from 1000 Hz to 1 MHz and at most 64 bands, each reported frequency is within hi/2^30 of that one.", "quantifier": "all band counts, sample rates, minimum frequencies and signals", "why_tests_cant": "all sample rates and frequency ranges", "anchors": ["visqol-rs/src/equivalent_rectangular_bandwidth.rs: calculate_uniform_center_freqs", "visqol-rs/src/gammatone_spectrogram_builder.rs: build"]}
{"id": "C68", "title": "Where the MOS comes from", "statement": "The MOS depends on the two signals only through the reported fvnsim: two comparisons with the same quality mapping and the same fvnsim report the same MOS. Fullband: the model is asked about a vector of exactly as many features as it has, the reported similarities in single precision followed by zeros, and its answer limited to 1..5 is the MOS unless vnsim < 0.15 (then 1); a model with fewer features than bands never gives a score. Wideband, exact arithmetic: the MOS is 1.1559455 + exp(4.6851153 (vnsim - 0.7655232)), times 1.2031409 unless unscaled, limited to 1..5, and 1 if vnsim < 0.15. Wideband, double precision: the same within 0.000003 of the reported vnsim's exponential, and exactly 1 if the reported vnsim is below the literal 0.15, although the mapper sums the bands in another order than the one vnsim is computed with.", "quantifier": "all signals, models, modes and build profiles", "why_tests_cant": "all signals and all model files; the unit tests evaluate a few vectors with one model", "anchors": ["visqol-rs/src/svr_similarity_to_quality_mapper.rs: predict_quality", "visqol-rs/src/speech_similarity_to_quality_mapper.rs: predict_quality", "visqol-rs/src/visqol.rs: calculate_similarity, alter_for_similarity_extremes"]}
{"id": "C69", "title": "fstdnsim is the pooled deviation of the patches", "statement": "In exact arithmetic fstdnsim of a band is sqrt((sum over reported patches of (k-1) s^2 + k m^2 - K fvnsim^2) / (K-1)), with m and s the patch's reported band mean and deviation, k the number of frames its reported duration spans (at least 1, at most the patch size plus 4) and K the sum of the k. Where every patch's band mean and deviation are those of as many values as the frames counted, the same number for all patches, this is the sample standard deviation of all those values together. (A patch replaced in fine alignment has fewer spectrogram columns than frames are counted for it, see C71, so for such patches the pooled value is not the deviation of the cells.)", "quantifier": "all comparisons that return a result; all lists of patches", "why_tests_cant": "all numbers of patches, bands and durations", "anchors": ["visqol-rs/src/visqol.rs: calc_per_patch_mean_freq_band_std_devs"]}
{"id": "C70", "title": "The delay that alignment applies", "statement": "In exact arithmetic, globally_align always returns: for two signals of at least 2 samples, the longer of at least 9, it delays the degraded signal by the best lag (as in C40) of the two envelopes, zeros being put in front or leading samples dropped, unless that lag is more than half the length of the reference, in which case nothing is shifted; the reported lag is that number of samples divided by the sample rate. The delay is a function of the samples: no two delays meet this description for the same signals. In floating point, for signals of up to 2^24 samples of at most 2 in absolute value, the degraded one at least half as long as the reference, it also always returns, and the lag is one whose absolute correlation of the exact envelopes is the largest up to n*sqrt(n)/2^26; the reported lag is the rounded quotient. So if one lag exceeds all others by more than that, the delay is the one of exact arithmetic.", "quantifier": "all signal pairs up to 2^62 samples, both build profiles", "why_tests_cant": "all signals and all lags; ties between lags", "anchors": ["visqol-rs/src/alignment.rs: globally_align", "visqol-rs/src/envelope.rs", "visqol-rs/src/xcorr.rs: calculate_best_lag"]}
{"id": "C71", "title": "Every reported patch can be traced back to the samples", "statement": "In exact arithmetic a successful comparison uses the reference and the degraded signal delayed as in C70 and scaled by one positive factor (which makes the levels equal if neither is silent). Both have a spectrogram: in each band of the ERB scale and each frame, the root mean square of the frame filtered by a gammatone filter of unit gain, in decibels above the common floor. Each reported patch is then one of three: silent, because nothing was matched; the NSIM comparison of P consecutive frames of the reference spectrogram with P consecutive frames of the degraded one (zero past the end), at the reported times; or the NSIM comparison of the same two stretches of samples aligned once more, cut to equal length and analysed anew, at times moved by the lag. Of the last two the one with the higher similarity is reported, the realigned one on a tie. If the frame size is a multiple of four, a patch of the second kind is counted with exactly P frames in fstdnsim, but a realigned patch of n frames is counted with n+3 or n+4.", "quantifier": "all comparisons at sample rates from 101 to 2^32 Hz that return a result, both modes, both build profiles", "why_tests_cant": "relates every number of a patch to the samples for all inputs; the tests compare final scores of a few files", "anchors": ["visqol-rs/src/visqol.rs: calculate_similarity", "visqol-rs/src/visqol_manager.rs: compute_results", "visqol-rs/src/comparison_patches_selector.rs: find_most_optimal_deg_patches, finely_align_and_recreate_patches", "visqol-rs/src/neurogram_similiarity_index_measure.rs", "visqol-rs/src/gammatone_spectrogram_builder.rs", "visqol-rs/src/audio_utils.rs: scale_to_match_sound_pressure_level, prepare_spectrograms_for_comparison"]}
{"id": "C72", "title": "Matching is optimal within the search window for signals of any length", "statement": "Coarse matching may move each reference patch by at most the search window (radius times patch length, in columns). If the similarities of the patches with all places in their windows are positive, then in exact arithmetic the reported matches are in order, the place of the latest match lies in the window of every patch up to the one it serves, the total similarity is the sum of the reported similarities, and no other choice obeying these rules has a larger total. Unlike C33 this does not need a window that covers the whole degraded spectrogram (with the default radius of 60 that is 36 seconds in wideband and 24 seconds in fullband mode). The same holds in IEEE arithmetic, with totals formed by adding the similarities one after the other: the matches stay in the windows, and no choice within the windows has a running total that compares as larger.", "quantifier": "all lists of equally sized reference patches with increasing starts, all degraded spectrograms no patch is out of reach of, all radii, both build profiles", "why_tests_cant": "optimality over all choices, for windows smaller than the signal: table cells outside the windows hold zeros, and only a proof shows that they are never chosen", "anchors": ["visqol-rs/src/comparison_patches_selector.rs: find_most_optimal_deg_patches, find_most_optimal_deg_patch"]}
{"id": "C73", "title": "Patch scores are finite in double precision", "statement": "Comparing two patches of the same non-empty shape whose levels are finite numbers (at most 2^100 in size) always succeeds in double precision, and the similarity, every band mean and every degraded band energy is a finite number: no NaN or infinity comes out of the subtractions of means of squares, the square root or the divisions of the measure.", "quantifier": "all pairs of equally shaped patches with finite levels, every rounding mode", "why_tests_cant": "rounding can make variances negative and denominators tiny; only a proof over all inputs excludes a NaN", "anchors": ["visqol-rs/src/neurogram_similiarity_index_measure.rs: measure_patch_similarity", "visqol-rs/src/convolution_2d.rs: perform_valid_2d_conv_with_boundary"]}
{"id": "C74", "title": "In double precision, comparisons of ordinary signals always give a finite score", "statement": "The floating point counterpart of C63. Take two signals of the same sample rate between 1 kHz and 1 MHz whose samples are numbers of at most 2 in size, and whose degraded signal has, past half the length of the reference, at least one sample of size at least 2^-40. Under the length conditions of C63 (enough frames for two patches, in wideband mode one patch judged active beyond the first, a degraded signal that reaches far enough, total length below 2^30 samples) the comparison returns a result in double precision: no panic, no error, the MOS is a number from 1 to 5, and vnsim, every entry of fvnsim, every patch similarity and every patch band mean is a finite number, and no entry of fvnsim exceeds 2^18 in size (rounding can push a similarity above 1, but not without limit). No NaN or infinity arises in the filter design, the recursive filters, the decibel conversion, the level matching, the FFT correlation, the similarity measure, matching, fine alignment or pooling that would reach a score. In fullband mode the support vector model must answer with a number for finite band means. Every pair of 16-bit files of the same rate gives such signals; the degraded file only needs one frame past half the length of the reference whose channels do not cancel.", "quantifier": "all pairs of ordinary signals at all sample rates from 1000 to 1000000 Hz, 1 to 64 bands, both modes, both build profiles, every rounding that meets the stated accuracy laws", "why_tests_cant": "overflow, cancellation, log of zero and 0/0 in any of a dozen stages would give NaN or a panic; only a proof covers all signals and sample rates", "anchors": ["visqol-rs/src/visqol_manager.rs: compute_results", "visqol-rs/src/visqol.rs: calculate_similarity", "visqol-rs/src/equivalent_rectangular_bandwidth.rs: make_filters", "visqol-rs/src/gammatone_filterbank.rs", "visqol-rs/src/comparison_patches_selector.rs", "visqol-rs/src/speech_similarity_to_quality_mapper.rs"]}
{"id": "C75", "title": "A delayed copy gets the score of the original", "statement": "The degraded signal counts only as it is after global alignment: two degraded signals that alignment maps to the same signal give identical results (any arithmetic). So, in exact arithmetic, if the degraded signal is the reference with k zeros in front and the delay found is k, compute_results returns exactly what it returns for the reference compared with itself (see C11). The delay is found for every k up to half the length if the signal has no constant part, nothing at half the sample rate, and its first and last samples are loud enough. In floating point, under the same conditions with a margin for rounding, for signals of up to 2^24 samples of at most 2 in absolute value, the results are identical bit for bit.", "quantifier": "all signals, delays, variants and both build profiles", "why_tests_cant": "relation between pairs of runs, over all signals and delays", "anchors": ["visqol-rs/src/visqol_manager.rs: compute_results", "visqol-rs/src/alignment.rs: globally_align"]}
{"id": "C76", "title": "Long files at 11025 Hz cannot be scored even against themselves", "statement": "In exact arithmetic, if a patch of a fullband reference starts, counted in unrounded quarter windows, behind the end of the signal, then compute_results of the signal with itself never returns Ok. This happens for all long enough files at sample rates whose window is not a multiple of four samples; in particular for every file of 400 s or more (and less than 2^31 samples) at 11025 Hz. (Defect; a consequence of C53.)", "quantifier": "all signals, sample rates, search radii and both build profiles", "why_tests_cant": "needs very long files; all signals", "anchors": ["visqol-rs/src/visqol.rs: calculate_frame_duration, calculate_similarity", "visqol-rs/src/analysis_window.rs", "visqol-rs/src/comparison_patches_selector.rs: slice, finely_align_and_recreate_patches"]}
{"id": "C77", "title": "The options reach the result", "statement": "Whatever a manager was used for before, its results depend on the options it was constructed with as documented. Fullband: the model file at the given path is the one that predicts the MOS (from the band means of the result, clamped to 1..5), and a path without a readable model is a failure at construction; on the command line this is the path given or the default one. Wideband (exact arithmetic, and up to 0.000003 in double precision): with the unscaled option the MOS is the documented function of the mean band similarity as it is, without it the same function rescaled so that 1.0 maps to 5.0; the command line passes the flag through without inverting it. Search radius k (exact arithmetic): matches are sought at most k patches of frames to either side of a reference patch; if the similarities in these windows are positive, no choice of matches within the windows has a larger total, and each reported patch is unmatched or at most (k + 1/2) patch durations plus half a sample away from the reference patch. In double precision, for ordinary signals at 1 kHz to 1 MHz and positive similarities, the coarse matches lie within k patches of frames of their reference patch and no choice within the windows has a larger total (added up in double precision).", "quantifier": "all worlds, option values, histories of the manager, signals", "why_tests_cant": "quantifies over histories, model files and signals; an inverted flag or a constant search radius passes any test that uses the default", "anchors": ["visqol-rs/src/visqol_manager.rs: new", "visqol-rs/src/variant.rs", "visqol/src/main.rs", "visqol/src/command_line_utils.rs", "visqol-rs/src/speech_similarity_to_quality_mapper.rs", "visqol-rs/src/svr_similarity_to_quality_mapper.rs", "visqol-rs/src/comparison_patches_selector.rs"]}
{"id": "C78", "title": "A very quiet reference gets a perfect score whatever it is compared with", "statement": "In exact arithmetic, levels are floored at -45 dB (a band level of 10^-4.5) before they are compared, and the degraded signal is first scaled to the level of the reference. So if neither the reference nor the aligned and scaled degraded signal has a band level above the floor, every patch similarity and every entry of fvnsim is 1, all deviations are 0 and vnsim is 1, however different the signals are. For every number of bands, sample rate and greatest length there is an amplitude such that every reference that nowhere exceeds it (and is not all zero) gets this result with every degraded signal that is one and a half times as long and not silent past half the length of the reference. (Defect of the metric: a nearly silent reference is rated as perfectly reproduced by anything.)", "quantifier": "all reference and degraded signals, sample rates, numbers of bands, search radii, variants and both build profiles", "why_tests_cant": "all pairs of signals", "anchors": ["visqol-rs/src/audio_utils.rs: prepare_spectrograms_for_comparison, scale_to_match_sound_pressure_level", "visqol-rs/src/visqol.rs: calculate_similarity", "visqol-rs/src/neurogram_similiarity_index_measure.rs", "visqol-rs/src/visqol_manager.rs: compute_results"]}
{"id": "C79", "title": "What the command line means", "statement": "Release builds: a command line is accepted exactly if every option is declared, given at most once and with a value exactly if it takes one, no list of files is combined with a single reference or degraded file, a valid subcommand is given and the radius is a readable number; the accepted arguments hold what was given, otherwise the documented defaults (radius 60, scaled mapping, model ./model/libsvm_nu_svr_model.txt, no files, not verbose). A radius in decimal notation is read as that number. Two defects of the declarations are part of the claim: they mention identifiers that do not exist (degraded-file and reference-file instead of degraded_file and reference_file). So a debug build panics for every command line, and in a release build a reference without a degraded file (or the reverse) is accepted, nothing is compared, and the tool reports success.", "quantifier": "all command lines (lists of options with values, subcommand with options)", "why_tests_cant": "all combinations of options; the repository has no test that runs the tool, and clap checks declarations only at run time", "anchors": ["visqol/src/command_line_utils.rs: CommandLineArgs, Subcommands", "visqol/src/main.rs: main"]}
{"id": "C80", "title": "For short files a larger search radius changes nothing", "statement": "Any two search radii that both cover a comparison (radius times patch size is at least the number of frames of the reference and of the aligned degraded signal, and twice that product fits an i32) give the same outcome: the same result, the same error or the same panic. In particular (IEEE arithmetic), for recordings of up to 15 seconds at 8000 Hz or more every radius from the default 60 up to 35 million gives the same outcome, in wideband and fullband mode and after any earlier comparisons, and the command line tool writes the same files, prints the same lines and ends the same way.", "quantifier": "all pairs of signals, all radii that cover them, all managers and histories, all command lines and worlds of files", "why_tests_cant": "an equality between two runs for all signals and all radii; it depends on the bounds of the slide loop, on the i32 arithmetic of the window and on where the backtrace starts", "anchors": ["visqol-rs/src/comparison_patches_selector.rs: find_most_optimal_deg_patches, find_most_optimal_deg_patch", "visqol-rs/src/visqol_manager.rs: compute_results", "visqol/src/main.rs: main", "visqol/src/command_line_utils.rs: CommandLineArgs"]}
{"id": "C81", "title": "The polarity of the reference decides which parts of it are compared", "statement": "Voice activity is measured relative to the largest signed sample of the reference, not to the largest magnitude. A wideband reference all of whose samples are negative (for example a recording with a negative constant offset) keeps every patch, however quiet its passages are; this also holds in floating point for every file that can be loaded. If all samples are positive and those that judge a patch other than the first are at most a seventh of the largest sample, the patch is dropped, but it is kept if the polarity of the reference is inverted; this too holds in floating point, for samples between 2^-20 and 2^20. So inverting the polarity of a recording can change which parts of it are compared. (Defect.)", "quantifier": "all references, all lengths and rates", "why_tests_cant": "relates two runs for all signals; a test would need exactly such a signal", "anchors": ["visqol-rs/src/math_utils.rs: normalize_signal", "visqol-rs/src/vad_patch_creator.rs: create_ref_patch_indices, get_voice_activity", "visqol-rs/src/rms_vad.rs"]}
{"id": "C82", "title": "Output options do not influence the scores", "statement": "Two command lines that differ only in --verbose, --results_csv and --output_debug ask for the same comparisons: if both runs end normally they print the same scores in the same order, and where both write a results CSV (or a debug file) its content is the same. If a run ends normally, changing these options adds no failure other than a requested output file that cannot be written or a results CSV for results with different numbers of patches; in that case the tool panics and prints no score at all. If a run without output files fails, the same run with any output options fails in the same way before anything is printed or written.", "quantifier": "all command lines, file systems and arithmetics", "why_tests_cant": "relates two runs for all inputs and all failures; the repository has no test that runs the tool", "anchors": ["visqol/src/main.rs: main", "visqol/src/output_utils.rs: write_results, write_to_console, write_debug_json, write_results_to_csv", "visqol/src/command_line_utils.rs: build_file_pair_paths"]}
{"id": "C83", "title": "Only the average of the channels matters", "statement": "A comparison sees a file only through the frame-by-frame average of its channels. In exact arithmetic, replacing the reference or the degraded file by a file of the same rate with the same averages (channels in another order, the same signal on any number of channels, a mono file holding the average) gives the same result or the same failure. In IEEE arithmetic this holds bit for bit for exchanged left and right channels and for a stereo file with the same signal on both channels against the mono file. A stereo file whose channels are inverses of one another cancels out: however loud it is, as a degraded file it never gets a score (for search radii of at least 1 and lengths for which the rounding of the hop does not add up to more than a window).", "quantifier": "all files, channel counts, managers and search radii", "why_tests_cant": "relates two runs for all files; bit-for-bit equality has to hold for each of the 65536 sample values and each pair of them", "anchors": ["visqol-rs/src/audio_utils.rs: load_as_mono, to_mono_matrix, extract_multichannel", "visqol-rs/src/math_utils.rs: normalize_int16_to_double", "visqol-rs/src/visqol_manager.rs: run"]}
{"id": "C84", "title": "The scores of the default fullband model", "statement": "Fullband comparisons that use the model file shipped with the tool are scored as follows, in exact arithmetic. A file compared with itself that gets a score gets 4.7321, not 5. No comparison of any two signals, after any history of the manager, gets more than 4.93. Scores are not monotone in the band similarities: perfect bands except for the third one at one half score higher than perfect bands. The upper eight of the 32 bands decide: perfect there and zero in the 24 lower bands scores above 4, the reverse below 1.6. At a similarity of 0.15 in all bands, the threshold below which every comparison gets 1.0, the model predicts more than 1.85. The score is stable: band similarities that differ by at most d in every band are given scores that differ by at most 401 d.", "quantifier": "all signals, search radii, histories and band similarities in (-1, 1]", "why_tests_cant": "the bound and the stability are about all points of a 32-dimensional cube under a sum of 317 Gaussian kernels with coefficients of both signs; tests evaluate the model at a few points", "anchors": ["model/libsvm_nu_svr_model.txt", "visqol/src/command_line_utils.rs: similarity_to_quality_model", "visqol-rs/src/support_vector_regression_model.rs: predict", "visqol-rs/src/svr_similarity_to_quality_mapper.rs: predict_quality"]}
{"id": "C85", "title": "A larger search radius does not find a worse match", "statement": "Coarse matching of the same patches with search radii r and r' with r at most r' reports the same number of patches, and, when the similarities in the windows of the larger radius are positive, the total of the similarities reported with r' is at least the total reported with r. In double precision the same holds for the totals of the reported matches formed in floating point.", "quantifier": "all patches, degraded spectrograms and pairs of radii", "why_tests_cant": "the two searches fill different tables; that no pair of radii and signals makes the larger search lose is a statement about all of them", "anchors": ["visqol-rs/src/comparison_patches_selector.rs: find_most_optimal_deg_patches, find_most_optimal_deg_patch, calculate_max_num_patches"]}
{"id": "C86", "title": "What a wideband score can be and how much one patch decides", "statement": "In exact arithmetic vnsim of every result is the mean of the similarities of the reported patches, so two results with n patches each that differ in k of them differ in vnsim by at most 2k/n. A wideband score is exactly 1 or at least 1.2118 (1.458 when scaled), never in between, and it never exceeds 4.15577 (4.99998 when scaled: 5 itself is not reached). Above the similarity threshold of 0.15 the score is stable: two scores differ by at most 14.1 (17 when scaled) times the difference of their vnsim. In double precision the same range and, up to 0.000006, the same stability hold for reported vnsim of at most 1. Also in double precision vnsim is the mean of the similarities of the n patches up to 0.000002 + (n+3)/2^33, and if k of the similarities (of size at most c) differ, vnsim differs by at most 2ck/n plus the rounding of both.", "quantifier": "all signals, histories, scaling options and pairs of results", "why_tests_cant": "the gap, the ceiling and the Lipschitz bound are about all pairs of comparisons", "anchors": ["visqol-rs/src/visqol.rs: calculate_similarity, alter_for_similarity_extremes", "visqol-rs/src/speech_similarity_to_quality_mapper.rs: predict_quality", "visqol-rs/src/math_utils.rs: exponential_from_fit"]}
{"id": "C87", "title": "Debug and release builds give the same results", "statement": "A debug build that does not stop at an integer overflow does exactly what a release build does: the same result or the same error, for signals, files, batches, and for everything the command line tool writes (the overflow stop happens before anything is written). Conversely, in IEEE arithmetic, whatever a release build returns for recordings of at most 2^30 samples together (rates of at least 50 Hz) and a search radius of at most 2^25, the debug build returns too. A bound on the radius is needed: in fullband mode a release build with radius k + 2^30 computes exactly what it computes with radius k, while the debug build never returns a result.", "quantifier": "all signals, files, batches, argument values, histories and managers", "why_tests_cant": "tests run in one profile on a few recordings; the claim is about every arithmetic operation on every input", "anchors": ["visqol-rs/src/comparison_patches_selector.rs", "visqol-rs/src/alignment.rs", "visqol-rs/src/visqol.rs: calc_per_patch_mean_freq_band_std_devs", "visqol-rs/src/visqol_manager.rs", "visqol/src/main.rs"]}
{"id": "C88", "title": "Every number of a result is a number", "statement": "For ordinary recordings in double precision (the conditions of C74: 16-bit files of 1000 Hz to 1 MHz, enough columns, some sound, in wideband mode an active patch, in fullband mode an SVR model that returns a number) the comparison succeeds and every number of the result is finite: MOS, vnsim, the band similarities, band deviations, band energies and centre frequencies, and for each reported patch the band similarities, deviations and energies, its similarity and its four times. No standard deviation and no energy is negative, and no energy exceeds 8195 dB. In particular the division by the total number of frames less one is never a division by zero: every reported patch counts at least two frames.", "quantifier": "all recordings (or files) meeting the stated conditions, all histories and both builds", "why_tests_cant": "a test sees the NaN-freedom of a few results; dozens of quotients, square roots and logarithms per patch have to stay finite for all signals", "anchors": ["visqol-rs/src/visqol.rs: calculate_similarity, calc_per_patch_mean_freq_band_std_devs", "visqol-rs/src/neurogram_similiarity_index_measure.rs", "visqol-rs/src/alignment.rs", "visqol-rs/src/similarity_result.rs"]}
{"id": "C89", "title": "Reported energies are levels above the floor", "statement": "In every result the degraded band energies are not negative: those of each patch, also of a patch reported as unmatched or matched beyond the end of the degraded signal, and their means over the patches. They are mean levels above the common floor subtracted in preparation, so 0 means that the band stayed at the floor. (Exact arithmetic, any signals; in double precision this is part of C88.)", "quantifier": "all signals, modes, build profiles and successful comparisons", "why_tests_cant": "all signals and all paths through the patch matching", "anchors": ["visqol-rs/src/neurogram_similiarity_index_measure.rs: measure_patch_similarity", "visqol-rs/src/audio_utils.rs: prepare_spectrograms_for_comparison", "visqol-rs/src/comparison_patches_selector.rs: finely_align_and_recreate_patches"]}
{"id": "C90", "title": "A pair's result does not depend on its batch", "statement": "If a run of the tool computes results for a list of pairs, then there is one result per pair such that every run with the same subcommand and search radius whose pairs are all among them (a part of the list, another order, repetitions, a single pair given by the file options, any output options) succeeds and computes exactly these results. Conversely, if a run fails during the comparisons, one of its pairs makes every run containing it fail.", "quantifier": "all file lists, all file contents, all options", "why_tests_cant": "The order, grouping and repetition of pairs in a batch are unlimited and one manager with mutable filter state is reused for all of them; a test can compare a few orders only.", "anchors": ["visqol/src/main.rs:19-72", "visqol/src/command_line_utils.rs:105-134", "visqol-rs/src/visqol_manager.rs"]}
{"id": "C91", "title": "Which files the tool changes and what they hold", "statement": "However the tool ends, it changes no file other than those named by --output_debug and --results_csv, and none if a comparison fails. After a normal end the results file holds one record per pair and the debug file the last result; if both options name the same file the debug output is lost. If the debug file cannot be written, nothing is written; if only the results file cannot, the debug file stays; in both cases the tool panics without printing a score. If the results differ in their number of patches, the results file is left with the leading records of the first one's length and a fragment, while the debug file is complete.", "quantifier": "all options, all file contents, all sets of writable paths, all ways the run can end", "why_tests_cant": "It is about files that are not touched and about every combination of options, failures and coinciding paths.", "anchors": ["visqol/src/output_utils.rs:12-70", "visqol/src/main.rs:30-72"]}
{"id": "C92", "title": "Exactly which errors a comparison returns", "statement": "In exact arithmetic compute_results returns an error value exactly in these cases, tested in this order: a signal is empty (FailedToAlignSignals); the reference, or then the aligned degraded signal, is shorter than a window (TooFewSamples with that length and the window); in fullband mode the reference has fewer than 30 spectrogram columns (ReferenceSpectrogramTooSmall with the number of columns and 10). In particular the realignment of patches never returns an error: it succeeds or panics. In floating point no other errors exist, except that two signals of a single sample may also fail to align; and for ordinary samples (finite, at most 2 in absolute value, at least one of the shifted degraded signal not below 2^-40) at 1000 Hz to 1 MHz the same cases, given the alignment, do produce these errors. For files: a run returns an error value exactly if the reference, or then the degraded file, is not 16 bit, the rates differ, or the comparison returns it; it passes on a failure to read exactly if the reference, or then the degraded file, is unreadable. A comparison that returns neither a result nor one of these errors panics.", "quantifier": "all signals and files, both modes, all sample rates of at least 50 Hz, both build profiles", "why_tests_cant": "A test can show that an error occurs, not that no other input produces one; the realignment of every patch of every file would have to be tried.", "anchors": ["visqol-rs/src/visqol_manager.rs:71-108", "visqol-rs/src/comparison_patches_selector.rs:320-393", "visqol-rs/src/alignment.rs:9-88", "visqol-rs/src/gammatone_spectrogram_builder.rs: build"]}
{"id": "C93", "title": "Exactly when a comparison succeeds and when it panics", "statement": "In exact arithmetic, let D be the number of spectrogram columns of the degraded signal shifted by the delay that alignment chooses (the best lag of the two envelopes, if that is at most half the reference), R that of the reference. A fullband comparison succeeds exactly when the shifted degraded signal has at least a window, R >= 51, D >= 19, and every patch start 9+20j with 9+20j+21 < R is at most D + 20*search_window. A wideband comparison succeeds exactly when the shifted degraded signal has at least a window, some patch k >= 1 of the reference is kept and starts at most 15 columns after D (14+30k <= D+15), and every kept patch has 14+30k <= D + 30*search_window; patch k is kept when it fits in R columns and one of its 30 frames, or one of the two frames before such a frame, has a 16-bit root mean square of at least 5000 relative to the largest sample (frames 0 and 1 always count). A comparison panics exactly when both signals have a window (in fullband mode: and R >= 30) but these conditions fail. In double precision the same holds for ordinary samples (finite, at most 2 in absolute value, at least one of the shifted degraded signal not below 2^-40), at most 64 bands and 1000 Hz to 1 MHz, where D belongs to the shifted degraded signal that alignment returned and frames are judged on the samples divided by the largest as computed; and whenever the comparison succeeds its scores are numbers.", "quantifier": "all pairs of signals of equal rate (at least 2 samples each, 9 in one of them, fewer than 2^30 in total with the search window), all rates from 50 Hz whose column times do not drift by more than a window, all search windows, both build profiles, all mappers that predict something", "why_tests_cant": "An equivalence speaks about every pair of signals: a test sees one success or one failure, not that nothing else decides between them.", "anchors": ["visqol-rs/src/visqol_manager.rs:71-108", "visqol-rs/src/comparison_patches_selector.rs:29-200", "visqol-rs/src/image_patch_creator.rs", "visqol-rs/src/vad_patch_creator.rs", "visqol-rs/src/alignment.rs:9-88"]}
{"id": "C94", "title": "The files written can be read back", "statement": "After a normal end of the tool, the text of the --results_csv file, split at line feeds and commas, yields the results of all pairs in order: overall scores, per-band lists and every patch with its five single numbers can be recovered, each number with its own text (21 bands in wideband mode, 32 in fullband mode). The text of the --output_debug file is valid JSON and denotes one object, the last result with all its fields under their names (it is empty if there are no pairs). In it null stands exactly for the values that are NaN or infinite; a finite number has the same text as in the results file, so for the comparisons of C88 no null occurs.", "quantifier": "all runs that end normally, any number of pairs and patches, all values", "why_tests_cant": "The column layout depends on the number of patches and nothing in the file marks where lists end; that no two results share a text and no separator is misplaced concerns all results.", "anchors": ["visqol/src/output_utils.rs:38-70", "visqol-rs/src/similarity_result.rs:5-22", "visqol-rs/src/patch_similarity_comparator.rs:3-23"]}
{"id": "C95", "title": "What an error says, and how the tool ends", "statement": "The texts of the errors (Display and Debug) contain exactly the numbers of the error, in order (rates, sample counts, columns, bit depth; the Display text of a wrong bit depth also names the required 16), and different errors never have the same text. The tool ends with status 0 exactly if its arguments are accepted, every pair succeeds alone, and the requested files can be written (for the results file: all results have the same number of patches). It reports a library error on the standard error stream, as `Error: ` and the Debug text, exactly if the first pair that fails alone returns that error. The status is 0, 1, 2 or 101: 2 exactly if the arguments are refused, 1 exactly if the list of pairs cannot be read or the first failing pair returns an error instead of panicking. With status 1 or 2 nothing has been printed as a result and no file written.", "quantifier": "all errors with all numbers; all command lines, file contents, lists of pairs, and build profiles", "why_tests_cant": "Texts with numbers form an infinite family; which pair of an arbitrary list determines the status and message concerns all lists and all outcomes of comparisons.", "anchors": ["visqol-rs/src/visqol_error.rs:1-36", "visqol/src/main.rs:19-72", "visqol/src/output_utils.rs:10-80", "visqol/src/command_line_utils.rs:105-134"]}
{"id": "C96", "title": "A louder, quieter or inverted copy gets the scores of the original", "statement": "In exact arithmetic, multiplying a signal by any factor multiplies its spectrogram by the magnitude of that factor, so inverting the polarity leaves the spectrogram as it is. If global alignment turns the degraded signal into the reference times a factor other than zero, positive or negative, every patch has similarity 1, all fvnsim entries and vnsim are 1, all fstdnsim entries 0, and MOS and centre frequencies are those of the reference compared with itself. So a copy delayed by k samples and multiplied by such a factor can be scored exactly if the reference can be scored against itself, and gets the same scores, whenever the delay is found. It is found for every k up to half the length if the signal has no constant part, nothing at half the sample rate, and its first and last samples are loud enough compared with the sum of all magnitudes. In floating point an ordinary signal (samples of magnitude at most 2) and its inverse have the same spectrogram bit for bit; under corresponding conditions on the ends of the signal an inverted copy delayed by at most half the length is scored exactly if the reference can be scored against itself, its scores are numbers, vnsim is at least 0.989 and the wideband MOS at least 3.99 (unscaled) or 4.8 (scaled).", "quantifier": "all signals, gains, delays up to half the length, both modes, all search radii below the overflow limit; floating point: all ordinary signals of at most 2^24 samples, sample rates from 1 kHz to 1 MHz, search radii that cover the reference", "why_tests_cant": "Concerns all signals and gains. The envelope used for alignment is not symmetric under inversion (it contains an offset of 1e-6), so whether an inverted copy is aligned needs an estimate of correlations at all lags.", "anchors": ["visqol-rs/src/visqol.rs:15-87", "visqol-rs/src/audio_utils.rs:17-43", "visqol-rs/src/alignment.rs:47-88", "visqol-rs/src/gammatone_spectrogram_builder.rs:16-85", "visqol-rs/src/envelope.rs:7-60"]}
{"id": "C97", "title": "A perfect score means identical levels", "statement": "In exact arithmetic two patches get similarity 1 exactly if all their levels are the same, so no difference of any kind goes unnoticed. Near 1 this is quantitative: with N levels between 0 and L, a similarity of at least 1 - e means that no level differs by more than 4.19 sqrt(N e (2 L^2 + 0.0001)). In floating point the same holds with e + 0.00001 in place of e, for levels of at most 256 dB and patches that around every cell both vary (local variance at least 1/16) or of which one is zero. A result has vnsim 1 exactly if every reported patch has similarity 1, and if vnsim is at least 1 - e, each of the k reported patches has similarity at least 1 - k e. A wideband comparison gets the MOS of a file compared with itself under the same scaling option exactly if every patch has similarity 1. If vnsim is 1, no patch is reported as unmatched, and for every patch the levels of the compared stretches agree in every band and frame, either in the spectrograms of reference and delayed, scaled degraded signal or in those of the stretches after fine alignment.", "quantifier": "all pairs of patches of the same shape, whatever that shape and their content; all successful comparisons in both modes (for the last sentence: minimum frequency below the upper limit, rates from 101 Hz, fewer than 2^56 samples)", "why_tests_cant": "That no pair of different patches gets a perfect score concerns all pairs; it depends on the smoothing window being invertible with repeated edges, for every patch size.", "anchors": ["visqol-rs/src/neurogram_similiarity_index_measure.rs:28-113", "visqol-rs/src/convolution_2d.rs:4-95", "visqol-rs/src/visqol.rs:15-140"]}
{"id": "C98", "title": "Silence at the end of the degraded file makes it too loud", "statement": "Level matching uses the average over the whole file. In exact arithmetic, if k zeros are appended to the n samples of the aligned degraded signal, level matching makes these samples louder by the factor sqrt((n + k) / n), and its spectrogram is larger by this factor in every frame of the original. In floating point the factor of the samples is the same up to a relative error of 2^-33 + N / 2^46, N the number of samples of both signals. So a perfect copy with k > 0 zeros appended is not scored like the copy: in every frame whose loudest band lies above the floor of -45, the prepared level of that band is higher in the degraded signal than in the reference by min(45, 5 log10(1 + k / n)), and the frames compared in place get a similarity below 1 as soon as one of them lies above the floor. A band of a spectrogram is zero in a frame exactly if all samples of the frame are zero.", "quantifier": "all signals that are not silent, all lengths of the appended silence, all windows and numbers of bands, all stretches of frames", "why_tests_cant": "A test shows the deviation for one file; the theorem gives its size for every file and every amount of silence, and shows that no content hides it.", "anchors": ["visqol-rs/src/audio_utils.rs:17-93", "visqol-rs/src/audio_signal.rs", "visqol-rs/src/gammatone_spectrogram_builder.rs:16-85", "visqol-rs/src/visqol.rs:15-60"]}
{"id": "C99", "title": "Small differences of levels or samples cost little", "statement": "In exact arithmetic, if no level of two patches differs by more than e, then the similarity of every band and of the patch is at least 1 - 11112 e^2. In floating point the bound is 1 - 11112 e^2 - 0.00001, for levels of at most 256 dB and patches that around every cell both vary (local variance at least 1/16) or of which one is zero. Preparing the spectrograms does not enlarge the difference of two levels in decibels (in floating point by no more than 2^-33 dB), and levels in decibels, raised to -45, differ by at most 140000 times the difference of the amplitudes, so nothing jumps near silence. For a whole comparison: if the degraded signal, delayed and brought to the level of the reference, has at least as many frames as the reference and no more than search radius times patch size (or any number, if 11112 e^2 times the number of frames of the reference is less than 1), and no level of the two prepared spectrograms differs by more than e, then vnsim is at least 1 - 11112 e^2, and in wideband mode (vnsim at least 0.15) the MOS is at most 17 * 11112 e^2 (14.1 * 11112 e^2 unscaled) below that of the reference compared with itself. In terms of samples: for given settings, rate and length of the reference there is a constant K such that, if no sample of the degraded signal, delayed and as long as the reference, differs from the reference by more than delta, then vnsim is at least 1 - K delta^2 (for signals longer than the search radius covers, provided that K delta^2 times the length is less than 1; with the same consequence for the MOS), although every decision of voice activity, level matching, patch matching and fine alignment lies in between. In fullband mode with the shipped model and vnsim at least 0.15, the MOS differs from 4.7321 by at most 12832 (1 - vnsim).", "quantifier": "all pairs of patches of the same shape, whatever that shape and their content; all successful comparisons in both modes (minimum frequency below the upper limit, rates from 101 Hz, indices below 2^31)", "why_tests_cant": "A bound on the effect of every small change on every signal; matching and fine alignment choose among many candidates, and only their optimality for all inputs shows that they cannot make the result worse.", "anchors": ["visqol-rs/src/neurogram_similiarity_index_measure.rs:28-113", "visqol-rs/src/comparison_patches_selector.rs", "visqol-rs/src/audio_utils.rs", "visqol-rs/src/visqol.rs:15-140"]}
